import Verif.Proofs.LooseMain
import Verif.Props.DecodeClaims
/-!
# JSON texts are relaxed JSON
-/

namespace L8w8jwt
open Spec

variable {num : Bytes → Nat}

theorem quoted_body {t : Bytes} (h : Body t) : Quoted t := by
  induction h with
  | nil => exact .nil
  | plain a b _ _ ih => exact .plain a b ih
  | simple a _ _ ih => exact .esc (by rw [a]; rfl) ih
  | hex a b c d _ ih => exact .hex (by rw [a]; rfl) (by rw [b]; rfl) (by rw [c]; rfl) (by rw [d]; rfl) ih

theorem quoted_jstr {t : Bytes} (h : JStr t) : Quoted t := quoted_body (jstr_body h)

theorem prim_word {t : Bytes} (h : t ≠ [] ∧ ∀ c ∈ t, primChar c = true) : Word t := by
  have key : ∀ c, primChar c = true → wordChar c = true ∧ c ≠ 34 ∧ c ≠ 91 ∧ c ≠ 123 := by
    intro c
    refine byte_all (P := fun c => primChar c = true → wordChar c = true ∧ c ≠ 34 ∧ c ≠ 91 ∧ c ≠ 123) ?_ c
    decide +kernel
  cases t with
  | nil => exact absurd rfl h.1
  | cons c t =>
    have := key c (h.2 c (by simp))
    exact ⟨c, t, rfl, this.1, this.2.1, this.2.2.1, this.2.2.2, fun x hx => (key x (h.2 x (by simp [hx]))).1⟩

theorem ws_gap {c : UInt8} (h : c = 32 ∨ c = 9 ∨ c = 10 ∨ c = 13) : gapChar c = true := by
  rcases h with rfl | rfl | rfl | rfl <;> rfl

theorem items_ws {w t : Bytes} {l : List Item} (hw : JWs w) (h : Items t l) : Items (w ++ t) l := by
  induction w with
  | nil => exact h
  | cons c w ih => exact .gap (ws_gap (hw c (by simp))) (ih fun x hx => hw x (by simp [hx]))

theorem stops_cons {c : UInt8} {t : Bytes} (hc : stopChar c = true) : Stops (c :: t) := by
  intro x hx
  cases hx
  exact hc

theorem stops_nil : Stops [] := fun _ hx => nomatch hx

theorem stops_ws {w t : Bytes} (hw : JWs w) (h : Stops t) : Stops (w ++ t) := by
  cases w with
  | nil => exact h
  | cons c w => exact stops_cons (by simp [stopChar, ws_gap (hw c (by simp))])

/-- What a JSON text is as relaxed JSON. -/
def Lax : JKind → Bytes → Nat → Prop
  | .value, t, n => ∀ rest l, Stops rest → Items rest l → Items (t ++ rest) (⟨t, n⟩ :: l)
  | _, t, n => ∃ k, total k = n ∧ ∀ rest l, Stops rest → Items rest l → Items (t ++ rest) (k ++ l)

theorem lax_word {t : Bytes} (h : Word t) : Lax .value t 1 := fun _ _ hs hr => .word h hs hr

theorem lax_group {a : Bytes} {n : Nat} (k : List Item) (hk : total k = n) (ha : ∀ rest l, Stops rest → Items rest l → Items (a ++ rest) (k ++ l)) :
    Lax .value (91 :: (a ++ [93])) (n + 1) ∧ Lax .value (123 :: (a ++ [125])) (n + 1) := by
  have h0 : Items a k := by simpa using ha [] [] stops_nil .nil
  constructor
  · intro rest l _ hr
    have := Items.array h0 hr
    rw [hk, Nat.add_comm 1 n] at this
    simpa using this
  · intro rest l _ hr
    have := Items.object h0 hr
    rw [hk, Nat.add_comm 1 n] at this
    simpa using this

theorem lax_member {a k b c v d : Bytes} {n : Nat} (ha : JWs a) (hk : JStr k) (hb : JWs b) (hc : JWs c) (hv : Lax .value v n) (hd : JWs d)
    {rest : Bytes} {l : List Item} (hs : Stops rest) (hr : Items rest l) :
    Items (a ++ 34 :: (k ++ 34 :: (b ++ 58 :: (c ++ v ++ d ++ rest)))) (⟨34 :: (k ++ [34]), 1⟩ :: ⟨v, n⟩ :: l) := by
  refine items_ws ha (.string (quoted_jstr hk) (items_ws hb (.gap rfl ?_)))
  rw [List.append_assoc, List.append_assoc]
  exact items_ws hc (hv _ _ (stops_ws hd hs) (items_ws hd hr))

theorem jsize_lax {k : JKind} {t : Bytes} {n : Nat} (h : JSize k t n) : Lax k t n := by
  induction h with
  | str h =>
    intro rest l _ hr
    simpa using Items.string (quoted_jstr h) hr
  | num h => exact lax_word (prim_word (jnum_prim h))
  | lit h => exact lax_word (prim_word (jlit_prim h))
  | arr0 h => exact (lax_group [] rfl fun _ _ _ hr => items_ws h hr).1
  | obj0 h => exact (lax_group [] rfl fun _ _ _ hr => items_ws h hr).2
  | arr _ ih =>
    obtain ⟨k, hk, ih⟩ := ih
    exact (lax_group k hk ih).1
  | obj _ ih =>
    obtain ⟨k, hk, ih⟩ := ih
    exact (lax_group k hk ih).2
  | @elem a v b n ha _ hb ih =>
    refine ⟨[⟨v, n⟩], by simp [total], fun rest l hs hr => ?_⟩
    rw [List.append_assoc, List.append_assoc]
    exact items_ws ha (ih _ _ (stops_ws hb hs) (items_ws hb hr))
  | @elems a v b t n m ha _ hb _ ih1 ih2 =>
    obtain ⟨k, hk, ih2⟩ := ih2
    refine ⟨⟨v, n⟩ :: k, by rw [total_cons, hk], fun rest l hs hr => ?_⟩
    have := items_ws ha (ih1 _ _ (stops_ws hb (stops_cons (by rfl))) (items_ws hb (.gap (by rfl) (ih2 rest l hs hr) : Items (44 :: _) _)))
    simpa using this
  | @mem a k b c v d n ha hk hb hc _ hd ih =>
    refine ⟨[⟨34 :: (k ++ [34]), 1⟩, ⟨v, n⟩], by simp [total, Nat.add_comm], fun rest l hs hr => ?_⟩
    simpa using lax_member ha hk hb hc ih hd hs hr
  | @mems a k b c v d t n m ha hk hb hc _ hd _ ih1 ih2 =>
    obtain ⟨y, hy, ih2⟩ := ih2
    refine ⟨⟨34 :: (k ++ [34]), 1⟩ :: ⟨v, n⟩ :: y, by rw [total_cons, total_cons, hy]; show 1 + (n + m) = n + 1 + m; omega, fun rest l hs hr => ?_⟩
    have := lax_member ha hk hb hc ih1 hd (stops_cons (by rfl)) (.gap (by rfl) (ih2 rest l hs hr) : Items (44 :: _) _)
    simpa using this

/-- The items of the members of an object. -/
inductive PairItems : List (Bytes × Bytes) → List Item → Prop where
  | nil : PairItems [] []
  | cons {k v : Bytes} {n : Nat} {l : List (Bytes × Bytes)} {y : List Item} : JStr k → JSize .value v n → PairItems l y →
      PairItems ((k, v) :: l) (⟨34 :: (k ++ [34]), 1⟩ :: ⟨v, n⟩ :: y)

theorem jmembers_items {t : Bytes} {l : List (Bytes × Bytes)} (h : JMembers t l) :
    ∃ y, PairItems l y ∧ ∀ rest i, Stops rest → Items rest i → Items (t ++ rest) (y ++ i) := by
  induction h with
  | mem ha hk hb hc hv hd =>
    obtain ⟨n, hn⟩ := jtext_size hv
    refine ⟨_, .cons hk hn .nil, fun rest i hs hr => ?_⟩
    simpa using lax_member ha hk hb hc (jsize_lax hn) hd hs hr
  | mems ha hk hb hc hv hd _ ih =>
    obtain ⟨n, hn⟩ := jtext_size hv
    obtain ⟨y, hy, ih⟩ := ih
    refine ⟨_, .cons hk hn hy, fun rest i hs hr => ?_⟩
    have := lax_member ha hk hb hc (jsize_lax hn) hd (stops_cons (by rfl)) (.gap (by rfl) (ih rest i hs hr) : Items (44 :: _) _)
    simpa using this

/-- A JSON object is one item, with the items of its members in it. -/
theorem jobject_items {t : Bytes} {l : List (Bytes × Bytes)} (h : JObject t l) :
    ∃ a y, PairItems l y ∧ Items a y ∧ Items t [⟨123 :: (a ++ [125]), 1 + total y⟩] := by
  cases h with
  | @empty a w b ha hw hb =>
    have hw' : Items w [] := by simpa using items_ws hw .nil
    have hb' : Items b [] := by simpa using items_ws hb .nil
    exact ⟨w, [], .nil, hw', items_ws ha (.object hw' hb')⟩
  | @full a t l b ha hm hb =>
    obtain ⟨y, hy, hi⟩ := jmembers_items hm
    have hi : Items t y := by simpa using hi [] [] stops_nil .nil
    have hb' : Items b [] := by simpa using items_ws hb .nil
    exact ⟨t, y, hy, hi, items_ws ha (.object hi hb')⟩

theorem pairItems_size {l : List (Bytes × Bytes)} {y : List Item} (h : PairItems l y) : PairsSize l (total y) := by
  induction h with
  | nil => exact .nil
  | cons _ hv _ ih =>
    rw [total_cons, total_cons, ← Nat.add_assoc, Nat.add_comm 1]
    exact .cons hv ih

theorem jnum_first {t : Bytes} (h : JNum t) : t.take 4 ≠ str "true" := by
  obtain ⟨sgn, int, frac, ex, rfl, hs, hi, -⟩ := h
  intro he
  rcases hs with rfl | rfl
  · rcases hi with rfl | ⟨⟨hne, hd⟩, -⟩
    · have := congrArg List.head? he
      simp [str] at this
    · cases int with
      | nil => exact hne rfl
      | cons c int =>
        have := hd c (by simp)
        have h2 := congrArg List.head? he
        have e : c = 116 := by simpa [str] using h2
        subst e
        exact absurd this.2 (by decide)
  · have := congrArg List.head? he
    simp [str] at this

theorem itemType_json {v : Bytes} (h : JText .value v) : itemType num v = valueType num v := by
  unfold itemType valueType
  cases h with
  | str => simp
  | arr0 => simp
  | arr => simp
  | obj0 => simp
  | obj => simp
  | num hn => simp [jnum_first hn]
  | lit hl =>
    simp only [List.mem_cons, List.not_mem_nil, or_false] at hl
    rcases hl with rfl | rfl | rfl <;> simp [str]

theorem says_claim {k v : Bytes} {n : Nat} {d : DClaim} (hv : JSize .value v n) (h : Says num (k, v) d) :
    ItemClaim num ⟨34 :: (k ++ [34]), 1⟩ ⟨v, n⟩ d where
  type := (itemType_json (jsize_text hv)).trans h.type
  key := by simpa [unquote_eq] using h.rawKey
  string hs := h.rawString hs
  other hs := h.other hs

/-- The slots looked at behind the members of a JSON object. -/
def behindOf (l : List (Bytes × Bytes)) : Behind := if lastComposite l then .two else .none

theorem pairItems_typed {l : List (Bytes × Bytes)} {y : List Item} (h : PairItems l y)
    (ht : l.all (fun m => (valueType num m.2).isSome) = true) : ∃ ds, SayAll num l ds ∧ Pairs num y true ds (behindOf l) := by
  induction h with
  | nil => exact ⟨[], .nil, .nil⟩
  | @cons k v n l y hk hv hl ih =>
    simp only [List.all_cons, Bool.and_eq_true] at ht
    obtain ⟨ty, hty⟩ := Option.isSome_iff_exists.mp ht.1
    obtain ⟨ds, h1, h2⟩ := ih ht.2
    have hs := rawClaim_says (num := num) (m := (k, v)) hk (jsize_text hv) hty
    refine ⟨_, .cons hs h1, ?_⟩
    cases hl with
    | nil =>
      cases h2
      by_cases hc : composite v = true
      · have : behindOf [(k, v)] = .two := by simp [behindOf, lastComposite, hc]
        rw [this]
        exact .last rfl (says_claim hv hs) hc
      · have : behindOf [(k, v)] = .none := by simp [behindOf, lastComposite, hc]
        rw [this]
        exact .cons rfl (says_claim hv hs) (fun _ => by simpa using hc) .nil
    | cons hk' hv' hl' =>
      have : ∀ m m' (l : List (Bytes × Bytes)), behindOf (m :: m' :: l) = behindOf (m' :: l) := by
        intro m m' l
        rw [behindOf, behindOf, lastComposite, lastComposite, List.getLast?_cons_cons]
      rw [this]
      exact .cons rfl (says_claim hv hs) (fun h => nomatch h) h2

theorem pairItems_untyped {l : List (Bytes × Bytes)} {y : List Item} (h : PairItems l y)
    (ht : l.all (fun m => (valueType num m.2).isSome) = false) : ∃ ds, Pairs num y false ds .none := by
  induction h with
  | nil => cases ht
  | @cons k v n l y hk hv hl ih =>
    cases hty : valueType num v with
    | none => exact ⟨[], .value rfl ((itemType_json (jsize_text hv)).trans hty)⟩
    | some ty =>
      simp only [List.all_cons, hty, Option.isSome_some, Bool.true_and] at ht
      obtain ⟨ds, hd⟩ := ih ht
      refine ⟨_, .cons rfl (says_claim hv (rawClaim_says (m := (k, v)) hk (jsize_text hv) hty)) ?_ hd⟩
      rintro rfl
      cases hl
      cases ht

/-- What there is in a JSON object with values of known types. -/
theorem parsed_typed {t : Bytes} {l : List (Bytes × Bytes)} (h : JObject t l) (ht : l.all (fun m => (valueType num m.2).isSome) = true) :
    ∃ ds n, SayAll num l ds ∧ PairsSize l n ∧ Parsed num t true ds (n + 1) (behindOf l) := by
  obtain ⟨a, y, h1, h2, h3⟩ := jobject_items h
  obtain ⟨ds, hs, hp⟩ := pairItems_typed h1 ht
  refine ⟨ds, _, hs, pairItems_size h1, ?_⟩
  have := Parsed.object (num := num) h3 rfl h2 (by simpa using hp)
  rwa [List.append_nil, Nat.add_comm] at this

/-- What there is in a JSON object with a value of unknown type. -/
theorem parsed_untyped {t : Bytes} {l : List (Bytes × Bytes)} (h : JObject t l) (ht : l.all (fun m => (valueType num m.2).isSome) = false) :
    ∃ ds n, PairsSize l n ∧ Parsed num t false ds (n + 1) .none := by
  obtain ⟨a, y, h1, h2, h3⟩ := jobject_items h
  obtain ⟨ds, hp⟩ := pairItems_untyped h1 ht
  refine ⟨ds, _, pairItems_size h1, ?_⟩
  have := Parsed.object (num := num) h3 rfl h2 (by simpa using hp)
  rwa [List.append_nil, Nat.add_comm] at this

/-- What there is in a JSON text that is not an object. -/
theorem parsed_value {w v w' : Bytes} (hw : JWs w) (hv : JText .value v) (hw' : JWs w') (ho : v.head? ≠ some 123) :
    ∃ n, Parsed num (w ++ (v ++ w')) false [] n .none := by
  obtain ⟨n, hn⟩ := jtext_size hv
  have hb' : Items w' [] := by simpa using items_ws hw' .nil
  have : Items (w ++ (v ++ w')) [⟨v, n⟩] := items_ws hw (jsize_lax hn _ _ (by simpa using stops_ws hw' stops_nil) hb')
  exact ⟨_, .noObject this ho⟩

end L8w8jwt
