import Verif.Proofs.JsmnText
import Verif.Spec.JsonClaims
/-!
# Parsing the claims of a JSON object
-/

namespace L8w8jwt
open Spec

variable {env : Env}

theorem jtext_size {k : JKind} {t : Bytes} (h : JText k t) : ∃ n, JSize k t n := by
  induction h with
  | str h => exact ⟨_, .str h⟩
  | num h => exact ⟨_, .num h⟩
  | lit h => exact ⟨_, .lit h⟩
  | arr0 h => exact ⟨_, .arr0 h⟩
  | arr _ ih => obtain ⟨n, h⟩ := ih; exact ⟨_, .arr h⟩
  | obj0 h => exact ⟨_, .obj0 h⟩
  | obj _ ih => obtain ⟨n, h⟩ := ih; exact ⟨_, .obj h⟩
  | elem a _ b ih => obtain ⟨n, h⟩ := ih; exact ⟨_, .elem a h b⟩
  | elems a _ b _ ih1 ih2 => obtain ⟨n, h⟩ := ih1; obtain ⟨m, h'⟩ := ih2; exact ⟨_, .elems a h b h'⟩
  | mem a k b c _ d ih => obtain ⟨n, h⟩ := ih; exact ⟨_, .mem a k b c h d⟩
  | mems a k b c _ d _ ih1 ih2 => obtain ⟨n, h⟩ := ih1; obtain ⟨m, h'⟩ := ih2; exact ⟨_, .mems a k b c h d h'⟩

theorem jsize_text {k : JKind} {t : Bytes} {n : Nat} (h : JSize k t n) : JText k t := by
  induction h with
  | str h => exact .str h
  | num h => exact .num h
  | lit h => exact .lit h
  | arr0 h => exact .arr0 h
  | arr _ ih => exact .arr ih
  | obj0 h => exact .obj0 h
  | obj _ ih => exact .obj ih
  | elem a _ b ih => exact .elem a ih b
  | elems a _ b _ ih1 ih2 => exact .elems a ih1 b ih2
  | mem a k b c _ d ih => exact .mem a k b c ih d
  | mems a k b c _ d _ ih1 ih2 => exact .mems a k b c ih1 d ih2

/-! ## Values -/

/-- The claim of a member as the library makes it. -/
def rawClaim (m : Bytes × Bytes) (type : Int) : DClaim where
  key := unescapeString m.1
  value := if type = L8W8JWT_CLAIM_TYPE_STRING then unescapeString (unquote m.2) else m.2
  type := type

theorem strncmp_ne {x y : UInt8} (h : x ≠ y) (a b : Bytes) (n : Nat) : ∃ r, r ≠ 0 ∧ strncmp (x :: a) (y :: b) (n + 1) = .ok r := by
  refine ⟨_, ?_, by rw [strncmp, if_pos h]⟩
  intro e
  apply h
  apply UInt8.toNat_inj.mp
  omega

/-- The text of a token. -/
theorem slice_eq {p v q : Bytes} {t : Tok} (h1 : t.start = p.length) (h2 : t.end_ = (p.length + v.length : Nat)) :
    slice (p ++ (v ++ q)) t = v := by
  have : (t.end_ - t.start).toNat = v.length := by omega
  rw [slice, this, at_, h1]
  simp

theorem jnum_head {t : Bytes} (h : JNum t) : ∃ c r, t = c :: r ∧ (c = 45 ∨ (48 ≤ c ∧ c ≤ 57)) := by
  obtain ⟨sgn, int, frac, ex, rfl, h1, h2, -, -⟩ := h
  rcases h1 with rfl | rfl
  · rcases h2 with rfl | ⟨⟨h2, h3⟩, -⟩
    · exact ⟨48, _, rfl, Or.inr (by decide)⟩
    · cases int with
      | nil => exact absurd rfl h2
      | cons c r => exact ⟨c, _, rfl, Or.inr (h3 c (by simp))⟩
  · exact ⟨45, _, rfl, Or.inl rfl⟩

/-- The classification of a number or literal. -/
theorem primType_eq {p v q : Bytes} (hv : JNum v ∨ v ∈ [str "true", str "false", str "null"]) {t : Tok}
    (h1 : t.start = p.length) (h2 : t.end_ = (p.length + v.length : Nat)) :
    primType env (p ++ (v ++ q)) t = .ok (valueType env.checknum v) := by
  have hl : t.end_ - t.start = v.length := by omega
  have ha : at_ (p ++ (v ++ q)) t.start = v ++ q := by rw [at_, h1]; simp
  rcases hv with hv | hv
  · obtain ⟨c, r, rfl, hc⟩ := jnum_head hv
    have n1 : c ≠ 116 := by rintro rfl; revert hc; decide
    have n2 : c ≠ 102 := by rintro rfl; revert hc; decide
    have n3 : c ≠ 110 := by rintro rfl; revert hc; decide
    obtain ⟨r1, z1, e1⟩ := strncmp_ne n1 (r ++ q) (str "rue" ++ [0]) 3
    obtain ⟨r2, z2, e2⟩ := strncmp_ne n2 (r ++ q) (str "alse" ++ [0]) 4
    obtain ⟨r3, z3, e3⟩ := strncmp_ne n3 (r ++ q) (str "ull" ++ [0]) 3
    have e1' : strncmp (c :: (r ++ q)) (str "true" ++ [0]) 4 = .ok r1 := e1
    have e2' : strncmp (c :: (r ++ q)) (str "false" ++ [0]) 5 = .ok r2 := e2
    have e3' : strncmp (c :: (r ++ q)) (str "null" ++ [0]) 4 = .ok r3 := e3
    have ht : valueType env.checknum (c :: r) = if env.checknum (c :: r) = 1 then some 1 else if env.checknum (c :: r) = 2 then some 2 else none := by
      unfold valueType
      have m1 : (c :: r).head? ≠ some 34 := by
        intro h; simp at h; subst h; revert hc; decide
      have m2 : (c :: r).head? ≠ some 91 := by
        intro h; simp at h; subst h; revert hc; decide
      have m3 : (c :: r).head? ≠ some 123 := by
        intro h; simp at h; subst h; revert hc; decide
      have m4 : ¬ (c :: r = str "true" ∨ c :: r = str "false") := by
        rintro (h | h)
        · exact n1 (List.cons.inj h).1
        · exact n2 (List.cons.inj h).1
      have m5 : ¬ (c :: r = str "null") := fun h => n3 (List.cons.inj h).1
      rw [if_neg m1, if_neg m2, if_neg m3, if_neg m4, if_neg m5]
    have hrd : rdN (c :: r ++ q) (t.end_ - t.start).toNat = .ok (c :: r) := by
      rw [hl]; unfold rdN; rw [if_pos (by simp)]; simp
    unfold primType
    rw [ha, ht]
    simp only
    rw [hrd]
    simp only [List.cons_append, e1', e2', e3', bind, Except.bind, z1, z2, z3, decide_false, if_false]
    have hb : ∀ (b : Prop) [Decidable b], (if b then (.ok false : Res Bool) else .ok false) = .ok false := fun b _ => by split <;> rfl
    simp only [hb, Bool.false_eq_true, if_false]
    split
    · rfl
    · split <;> rfl
  · simp only [List.mem_cons, List.not_mem_nil, or_false] at hv
    unfold primType
    rw [hl, ha]
    rcases hv with rfl | rfl | rfl
    · have e1 : strncmp (str "true" ++ q) (str "true" ++ [0]) 4 = .ok 0 := by simp [str, strncmp]
      have e2 : valueType env.checknum (str "true") = some 3 := by simp [valueType, str]
      simp only [e1, e2]
      rfl
    · have e1 : strncmp (str "false" ++ q) (str "true" ++ [0]) 4 = .ok (-14) := by simp [str, strncmp]
      have e2 : strncmp (str "false" ++ q) (str "false" ++ [0]) 5 = .ok 0 := by simp [str, strncmp]
      have e3 : valueType env.checknum (str "false") = some 3 := by simp [valueType, str]
      simp only [e1, e2, e3]
      rfl
    · have e1 : strncmp (str "null" ++ q) (str "true" ++ [0]) 4 = .ok (-6) := by simp [str, strncmp]
      have e2 : strncmp (str "null" ++ q) (str "false" ++ [0]) 5 = .ok 8 := by simp [str, strncmp]
      have e3 : strncmp (str "null" ++ q) (str "null" ++ [0]) 4 = .ok 0 := by simp [str, strncmp]
      have e4 : valueType env.checknum (str "null") = some 4 := by simp [valueType, str]
      simp only [e1, e2, e3, e4]
      rfl

theorem skipNested_app (cap r : Nat) (e : Int) (nested : List Tok) (h : ∀ x ∈ nested, x.end_ ≤ e) (rest : List Tok) :
    skipNested env cap r e (nested ++ rest) = skipNested env cap r e rest := by
  induction nested with
  | nil => rfl
  | cons x l ih =>
    simp only [List.cons_append, skipNested]
    rw [if_pos (h x (by simp)), ih (fun y hy => h y (by simp [hy]))]

/-- The tokens behind a value, for the library: it looks at the slot behind the last token only if there is nothing else. -/
def after (env : Env) (cap r : Nat) (e : Int) (v : Bytes) (rest : List Tok) : Res (List Tok) :=
  if composite v then skipNested env cap r e rest else .ok rest

theorem claimType_eq {v : Bytes} (hv : JText .value v) {p q : Bytes} {nested rest : List Tok} (cap r : Nat)
    (hn : ∀ x ∈ nested, x.end_ ≤ (p.length + v.length : Nat)) (hn0 : composite v = false → nested = []) :
    claimType env (p ++ (v ++ q)) cap r (headTok p.length v) (nested ++ rest) =
      (after env cap r (p.length + v.length : Nat) v rest).bind fun rest => .ok (valueType env.checknum v, rest) := by
  have hprim : ∀ t, (JNum t ∨ t ∈ [str "true", str "false", str "null"]) → (t.head? ≠ some 34 ∧ t.head? ≠ some 91 ∧ t.head? ≠ some 123) →
      (composite t = false → nested = []) → claimType env (p ++ (t ++ q)) cap r (headTok p.length t) (nested ++ rest) =
      (after env cap r (p.length + t.length : Nat) t rest).bind fun rest => .ok (valueType env.checknum t, rest) := by
    intro t ht ⟨h1, h2, h3⟩ hn0
    have hc : composite t = false := by simp [composite, h2, h3]
    rw [hn0 hc, after, hc]
    simp only [headTok, if_neg h1, if_neg h2, if_neg h3, claimType]
    rw [primType_eq ht rfl (by simp)]
    rfl
  have harr : ∀ t : Bytes, t.head? = some 91 → (∀ x ∈ nested, x.end_ ≤ (p.length + t.length : Nat)) →
      claimType env (p ++ (t ++ q)) cap r (headTok p.length t) (nested ++ rest) =
      (after env cap r (p.length + t.length : Nat) t rest).bind fun rest => .ok (valueType env.checknum t, rest) := by
    intro t h hn
    have h1 : headTok p.length t = ⟨.array, p.length, (p.length + t.length : Nat)⟩ := by unfold headTok; rw [h]; rfl
    have h2 : composite t = true := by unfold composite; rw [h]; rfl
    have h3 : valueType env.checknum t = some 5 := by unfold valueType; rw [h]; rfl
    rw [h1, h3, after, h2, if_pos rfl]
    simp only [claimType, skipNested_app _ _ _ _ hn]
    rfl
  have hobj : ∀ t : Bytes, t.head? = some 123 → (∀ x ∈ nested, x.end_ ≤ (p.length + t.length : Nat)) →
      claimType env (p ++ (t ++ q)) cap r (headTok p.length t) (nested ++ rest) =
      (after env cap r (p.length + t.length : Nat) t rest).bind fun rest => .ok (valueType env.checknum t, rest) := by
    intro t h hn
    have h1 : headTok p.length t = ⟨.object, p.length, (p.length + t.length : Nat)⟩ := by unfold headTok; rw [h]; rfl
    have h2 : composite t = true := by unfold composite; rw [h]; rfl
    have h3 : valueType env.checknum t = some 6 := by unfold valueType; rw [h]; rfl
    rw [h1, h3, after, h2, if_pos rfl]
    simp only [claimType, skipNested_app _ _ _ _ hn]
    rfl
  cases hv with
  | @str t h =>
    rw [hn0 rfl, after]
    simp [headTok, claimType, composite, valueType]
    rfl
  | num h => exact hprim _ (Or.inl h) (prim_head (jnum_prim h).2) hn0
  | lit h => exact hprim _ (Or.inr h) (prim_head (jlit_prim h).2) hn0
  | arr0 h =>
    exact harr _ rfl hn
  | arr h =>
    exact harr _ rfl hn
  | obj0 h =>
    exact hobj _ rfl hn
  | obj h =>
    exact hobj _ rfl hn

theorem valueType_string {num : Bytes → Nat} {v : Bytes} {ty : Int} (h : valueType num v = some ty) :
    ty = L8W8JWT_CLAIM_TYPE_STRING ↔ v.head? = some 34 := by
  unfold valueType at h
  constructor
  · intro e
    by_cases h1 : v.head? = some 34
    · exact h1
    · rw [if_neg h1] at h
      subst e
      repeat' split at h
      all_goals (exfalso; revert h; decide)
  · intro e
    rw [if_pos e] at h
    exact (Option.some.inj h).symm

theorem jtext_string {v : Bytes} (h : JText .value v) (hs : v.head? = some 34) : ∃ k, JStr k ∧ v = 34 :: (k ++ [34]) := by
  cases h with
  | str h => exact ⟨_, h, rfl⟩
  | num h => exact absurd hs (prim_head (jnum_prim h).2).1
  | lit h => exact absurd hs (prim_head (jlit_prim h).2).1
  | arr0 h => simp at hs
  | arr h => simp at hs
  | obj0 h => simp at hs
  | obj h => simp at hs

theorem unquote_eq (k : Bytes) : unquote (34 :: (k ++ [34])) = k := by simp [unquote]

theorem mkClaim_eq {p k m v q : Bytes} {key : Tok} {ty : Int} (hv : JText .value v) (ht : valueType env.checknum v = some ty)
    (h1 : key.start = p.length) (h2 : key.end_ = (p.length + k.length : Nat)) :
    mkClaim (p ++ (k ++ (m ++ (v ++ q)))) key (headTok (p ++ k ++ m).length v) ty = rawClaim (k, v) ty := by
  have hk : slice (p ++ (k ++ (m ++ (v ++ q)))) key = k := slice_eq h1 h2
  have hst := valueType_string ht
  unfold mkClaim rawClaim
  rw [hk]
  have hval : (if ty = L8W8JWT_CLAIM_TYPE_STRING then
        unescapeString (slice (p ++ (k ++ (m ++ (v ++ q)))) (headTok (p ++ k ++ m).length v))
      else slice (p ++ (k ++ (m ++ (v ++ q)))) (headTok (p ++ k ++ m).length v)) =
      if ty = L8W8JWT_CLAIM_TYPE_STRING then unescapeString (unquote v) else v := by
    by_cases hs : ty = L8W8JWT_CLAIM_TYPE_STRING
    · rw [if_pos hs, if_pos hs]
      obtain ⟨x, hx, rfl⟩ := jtext_string hv (hst.mp hs)
      rw [unquote_eq]
      have := slice_eq (p := p ++ k ++ m ++ [34]) (v := x) (q := 34 :: q) (t := headTok (p ++ k ++ m).length (34 :: (x ++ [34])))
        (by simp [headTok]; omega) (by simp [headTok]; omega)
      simp only [List.append_assoc, List.cons_append, List.nil_append] at this ⊢
      rw [this]
    · rw [if_neg hs, if_neg hs]
      have hnh : v.head? ≠ some 34 := fun e => hs (hst.mpr e)
      have := slice_eq (p := p ++ k ++ m) (v := v) (q := q) (t := headTok (p ++ k ++ m).length v)
        (by unfold headTok; rw [if_neg hnh]; split <;> (try split) <;> rfl)
        (by unfold headTok; rw [if_neg hnh]; split <;> (try split) <;> rfl)
      simp only [List.append_assoc] at this ⊢
      rw [this]
  rw [hval]

/-! ## Members -/

/-- The claims of the members up to the first value that is no claim value. -/
def membersResult (env : Env) : List (Bytes × Bytes) → Nat × List DClaim
  | [] => (L8W8JWT_SUCCESS, [])
  | m :: l =>
    match valueType env.checknum m.2 with
    | none => (L8W8JWT_DECODE_FAILED_INVALID_TOKEN_FORMAT, [])
    | some ty => ((membersResult env l).1, rawClaim m ty :: (membersResult env l).2)

/-- All values are claim values, and the last one is an array or an object: then the slots behind the tokens are read. -/
def readsSlack (num : Bytes → Nat) (l : List (Bytes × Bytes)) : Bool :=
  l.all (fun m => (valueType num m.2).isSome) && lastComposite l

theorem members_parse {t : Bytes} {l : List (Bytes × Bytes)} (h : JMembers t l) (p q : Bytes) :
    ∃ toks vend, PairsSize l toks.length ∧ Runs t p.length toks ∧ (∃ k ts, toks = k :: ts ∧ (p.length : Int) < k.end_) ∧
      ((0 : Int) ≤ vend ∧ vend ≤ (p.length + t.length : Nat)) ∧
      ∀ cap r fuel, toks.length ≤ fuel → loopPure env (p ++ (t ++ q)) cap r fuel toks =
        if readsSlack env.checknum l then (skipNested env cap r vend []).bind fun _ => .ok (membersResult env l)
        else .ok (membersResult env l) := by
  induction h generalizing p with
  | @mem a k b c v d ha hk hb hc hv hd =>
    obtain ⟨n, hn⟩ := jtext_size hv
    obtain ⟨x, hx, hr, hh⟩ := jsize_runs hn (p.length + a.length + k.length + b.length + c.length + 3)
    obtain ⟨hne, nested, rfl, hnest⟩ := hh rfl
    refine ⟨⟨.string, (p.length + a.length + 1 : Nat), (p.length + a.length + 1 + k.length : Nat)⟩ :: headTok _ v :: nested,
      (p.length + a.length + k.length + b.length + c.length + 3 + v.length : Nat), ?_, runs_member ha hk hb hc hd hr,
      ⟨_, _, rfl, by simp; omega⟩, ⟨by omega, by simp; omega⟩, ?_⟩
    · have := PairsSize.cons (k := k) hn .nil
      rw [List.length_cons, hx]
      exact this
    · intro cap r fuel hf
      obtain ⟨fuel, rfl⟩ : ∃ f, fuel = f + 1 := ⟨fuel - 1, by simp at hf; omega⟩
      simp only [loopPure, ne_eq, not_true_eq_false, if_false]
      have hp : (p ++ (a ++ [34]) ++ k ++ (34 :: (b ++ 58 :: c))).length = p.length + a.length + k.length + b.length + c.length + 3 := by
        simp; omega
      have hjs : p ++ ((a ++ 34 :: (k ++ 34 :: (b ++ 58 :: (c ++ v ++ d)))) ++ q) =
          (p ++ (a ++ [34]) ++ k ++ (34 :: (b ++ 58 :: c))) ++ (v ++ (d ++ q)) := by simp
      have hjs2 : p ++ ((a ++ 34 :: (k ++ 34 :: (b ++ 58 :: (c ++ v ++ d)))) ++ q) =
          (p ++ (a ++ [34])) ++ (k ++ ((34 :: (b ++ 58 :: c)) ++ (v ++ (d ++ q)))) := by simp
      have hct := claimType_eq (env := env) hv (p := p ++ (a ++ [34]) ++ k ++ (34 :: (b ++ 58 :: c))) (q := d ++ q) (nested := nested) (rest := [])
        cap r (fun z hz => by rw [hp]; exact (hr.ends z (by simp [hz])).2) hnest
      rw [← hjs, hp, List.append_nil] at hct
      rw [hct]
      have hmk : ∀ ty, valueType env.checknum v = some ty → mkClaim (p ++ ((a ++ 34 :: (k ++ 34 :: (b ++ 58 :: (c ++ v ++ d)))) ++ q))
          ⟨.string, (p.length + a.length + 1 : Nat), (p.length + a.length + 1 + k.length : Nat)⟩
          (headTok (p.length + a.length + k.length + b.length + c.length + 3) v) ty = rawClaim (k, v) ty := by
        intro ty hty
        rw [hjs2, ← hp]
        exact mkClaim_eq hv hty (by simp; omega) (by simp; omega)
      generalize p ++ ((a ++ 34 :: (k ++ 34 :: (b ++ 58 :: (c ++ v ++ d)))) ++ q) = json at hmk ⊢
      simp only [membersResult, readsSlack, List.all_cons, List.all_nil, Bool.and_true, lastComposite, List.getLast?_singleton, after]
      have hfin : ∀ fuel, loopPure env json cap r fuel [] = .ok (L8W8JWT_SUCCESS, []) := by intro f; cases f <;> rfl
      cases hty : valueType env.checknum v with
      | none =>
        have hcm : composite v = false := by
          cases hcm : composite v with
          | false => rfl
          | true =>
            simp only [composite, Bool.or_eq_true, beq_iff_eq] at hcm
            unfold valueType at hty
            rcases hcm with h | h <;> rw [h] at hty <;> simp at hty
        rw [hcm]
        rfl
      | some ty =>
        simp only [Option.isSome_some, Bool.true_and]
        cases composite v with
        | false =>
          simp only [Bool.false_eq_true, if_false, Except.bind, bind, hfin]
          rw [hmk ty hty]
        | true =>
          simp only [if_true]
          rcases skipNested_ok env cap r (p.length + a.length + k.length + b.length + c.length + 3 + v.length : Nat) [] with ⟨l', e, hs⟩ | ⟨-, e⟩
          · have : l' = [] := List.suffix_nil.mp hs
            subst this
            rw [e]
            simp only [Except.bind, bind, hfin]
            rw [hmk ty hty]
          · rw [e]; rfl
  | @mems a k b c v d t l ha hk hb hc hv hd ht ih =>
    obtain ⟨n, hn⟩ := jtext_size hv
    obtain ⟨x, hx, hr, hh⟩ := jsize_runs hn (p.length + a.length + k.length + b.length + c.length + 3)
    obtain ⟨hne, nested, rfl, hnest⟩ := hh rfl
    have hp : (p ++ (a ++ [34]) ++ k ++ (34 :: (b ++ 58 :: c))).length = p.length + a.length + k.length + b.length + c.length + 3 := by
      simp; omega
    obtain ⟨y, vend, hy, hry, ⟨ky, ts, hky, hkend⟩, hve, hloop⟩ := ih (p ++ (a ++ 34 :: (k ++ 34 :: (b ++ 58 :: (c ++ v ++ d))) ++ [44]))
    have hlen : (p ++ (a ++ 34 :: (k ++ 34 :: (b ++ 58 :: (c ++ v ++ d))) ++ [44])).length =
        p.length + (a ++ 34 :: (k ++ 34 :: (b ++ 58 :: (c ++ v ++ d)))).length + 1 := by simp; omega
    rw [hlen] at hry hkend
    have hrun := Runs.sep (runs_member ha hk hb hc hd hr) (Or.inr rfl) hry
    refine ⟨⟨.string, (p.length + a.length + 1 : Nat), (p.length + a.length + 1 + k.length : Nat)⟩ :: headTok _ v :: nested ++ y, vend, ?_,
      by simpa using hrun, ⟨_, _, rfl, by simp; omega⟩,
      ⟨hve.1, by have := hve.2; simp at this ⊢; omega⟩, ?_⟩
    · have := PairsSize.cons (k := k) hn hy
      simp only [List.length_append, List.length_cons] at hx ⊢
      rwa [show nested.length + 1 + 1 + y.length = n + 1 + y.length by omega]
    · intro cap r fuel hf
      obtain ⟨fuel, rfl⟩ : ∃ f, fuel = f + 1 := ⟨fuel - 1, by simp at hf; omega⟩
      simp only [List.cons_append, loopPure, ne_eq, not_true_eq_false, if_false]
      have hjs : p ++ ((a ++ 34 :: (k ++ 34 :: (b ++ 58 :: (c ++ v ++ d ++ 44 :: t)))) ++ q) =
          (p ++ (a ++ [34]) ++ k ++ (34 :: (b ++ 58 :: c))) ++ (v ++ (d ++ 44 :: (t ++ q))) := by simp
      have hjs2 : p ++ ((a ++ 34 :: (k ++ 34 :: (b ++ 58 :: (c ++ v ++ d ++ 44 :: t)))) ++ q) =
          (p ++ (a ++ [34])) ++ (k ++ ((34 :: (b ++ 58 :: c)) ++ (v ++ (d ++ 44 :: (t ++ q))))) := by simp
      have hjs3 : p ++ ((a ++ 34 :: (k ++ 34 :: (b ++ 58 :: (c ++ v ++ d ++ 44 :: t)))) ++ q) =
          (p ++ (a ++ 34 :: (k ++ 34 :: (b ++ 58 :: (c ++ v ++ d))) ++ [44])) ++ (t ++ q) := by simp
      have hct := claimType_eq (env := env) hv (p := p ++ (a ++ [34]) ++ k ++ (34 :: (b ++ 58 :: c))) (q := d ++ 44 :: (t ++ q)) (nested := nested)
        (rest := y) cap r (fun z hz => by rw [hp]; exact (hr.ends z (by simp [hz])).2) hnest
      have hl := hloop cap r fuel (by simp at hf; omega)
      rw [← hjs, hp] at hct
      rw [← hjs3] at hl
      rw [hct]
      have hmk : ∀ ty, valueType env.checknum v = some ty → mkClaim (p ++ ((a ++ 34 :: (k ++ 34 :: (b ++ 58 :: (c ++ v ++ d ++ 44 :: t)))) ++ q))
          ⟨.string, (p.length + a.length + 1 : Nat), (p.length + a.length + 1 + k.length : Nat)⟩
          (headTok (p.length + a.length + k.length + b.length + c.length + 3) v) ty = rawClaim (k, v) ty := by
        intro ty hty
        rw [hjs2, ← hp]
        exact mkClaim_eq hv hty (by simp; omega) (by simp; omega)
      generalize p ++ ((a ++ 34 :: (k ++ 34 :: (b ++ 58 :: (c ++ v ++ d ++ 44 :: t)))) ++ q) = json at hmk hl ⊢
      have hafter : after env cap r (p.length + a.length + k.length + b.length + c.length + 3 + v.length : Nat) v y = .ok y := by
        unfold after
        split
        · rw [hky, skipNested, if_neg]
          simp only [List.length_append, List.length_cons] at hkend
          omega
        · rfl
      have hlast : lastComposite ((k, v) :: l) = lastComposite l := by
        cases ht <;> simp [lastComposite, List.getLast?_cons]
      rw [hafter]
      simp only [membersResult, readsSlack, List.all_cons, hlast]
      cases hty : valueType env.checknum v with
      | none => rfl
      | some ty =>
        simp only [Option.isSome_some, Bool.true_and]
        simp only [Except.bind, bind]
        rw [hl, hmk ty hty]
        unfold readsSlack
        cases hb : (l.all (fun m => (valueType env.checknum m.2).isSome) && lastComposite l) with
        | true =>
          rcases skipNested_ok env cap r vend [] with ⟨l', e, -⟩ | ⟨-, e⟩
          · rw [e]; rfl
          · rw [e]; rfl
        | false => rfl

/-! ## Objects -/

theorem runs_loop {t : Bytes} {toks : List Tok} (h : Runs t 0 toks) : jsmnCount t = .ok toks.length ∧
    ∀ cap, toks.length ≤ cap → jsmnParse t cap = .ok (toks.length, toks) := by
  have key : ∀ cap, toks.length ≤ cap → jLoop (some cap) t 0 .main ⟨0, []⟩ = .ok (S toks.reverse) := by
    intro cap hc
    obtain ⟨m, st, e, ha⟩ := h.run cap [] (by simpa using hc)
    have h1 := jLoop_run (b := []) h.nul e
    rw [List.append_nil, Nat.zero_add] at h1
    have h2 : (⟨0, []⟩ : JState) = S [] := rfl
    rw [h2, h1, jLoop]
    rw [Nat.zero_add, List.append_nil] at ha
    exact ha.fin (fun x hx => (h.ends x (by simpa using hx)).1) false
  have hparse : ∀ cap, toks.length ≤ cap → jsmnParse t cap = .ok (toks.length, toks) := by
    intro cap hc
    simp [jsmnParse, key cap hc, S]
  refine ⟨?_, hparse⟩
  have h1 := jLoop_count t 0 .main ⟨0, []⟩ _ (key toks.length (Nat.le_refl _))
  simp only [JState.counted] at h1
  simp [jsmnCount, h1, S]

/-- The number of token slots for a text with `n` tokens. -/
def slots (n : Nat) : Nat := if n ≤ 64 then 64 else n

/-- A JSON object is tokenized and turned into claims; the slots behind the tokens are looked at only if the last value
is an array or an object. -/
theorem object_parse {t : Bytes} {l : List (Bytes × Bytes)} (h : JObject t l) (pad : Bytes) :
    ∃ n vend, PairsSize l n ∧ ((0 : Int) ≤ vend ∧ vend ≤ t.length) ∧ jsmnCount t = .ok (n + 1) ∧ (∃ toks, jsmnParse t (n + 1) = .ok (n + 1, toks)) ∧
      parsePure env (t ++ pad) t.length =
        if readsSlack env.checknum l then (skipNested env (slots (n + 1)) (n + 1) vend []).bind fun _ => .ok (membersResult env l)
        else .ok (membersResult env l) := by
  have key : ∀ (a m b : Bytes) (toks : List Tok), JWs a → JWs b → Runs m (0 + a.length + 1) toks →
      jsmnCount (a ++ 123 :: (m ++ 125 :: b)) = .ok (toks.length + 1) ∧
      ∃ t0, t0.type = .object ∧ jsmnParse (a ++ 123 :: (m ++ 125 :: b)) (toks.length + 1) = .ok (toks.length + 1, t0 :: toks) := by
    intro a m b toks ha hb hr
    have h1 := runs_wrap hr true
    have h2 := Runs.pre ha (h1.post hb)
    have h3 := runs_loop h2
    simp only [if_true, List.cons_append, List.append_assoc, List.nil_append, List.length_cons] at h3
    exact ⟨h3.1, _, rfl, h3.2 _ (Nat.le_refl _)⟩
  cases h with
  | @empty a w b ha hw hb =>
    obtain ⟨h1, t0, h2, h3⟩ := key a w b [] ha hb (runs_ws hw _)
    refine ⟨0, 0, .nil, ⟨Int.le_refl _, by omega⟩, h1, ⟨_, h3⟩, ?_⟩
    unfold parsePure
    simp only [List.length_nil] at h1 h3
    simp only [List.take_left, h1, h3, h2, ne_eq, not_true_eq_false, if_false]
    rfl
  | @full a m l b ha hm hb =>
    obtain ⟨toks, vend, hs, hr, -, hv, hl⟩ := members_parse (env := env) hm (a ++ [123]) (125 :: b ++ pad)
    obtain ⟨h1, t0, h2, h3⟩ := key a m b toks ha hb (by simpa using hr)
    refine ⟨toks.length, vend, hs, ⟨hv.1, by have := hv.2; simp at this ⊢; omega⟩, h1, ⟨_, h3⟩, ?_⟩
    unfold parsePure
    simp only [List.take_left, h1, h3, h2, ne_eq, not_true_eq_false, if_false]
    have := hl (slots (toks.length + 1)) (toks.length + 1) (toks.length + 1) (Nat.le_succ _)
    rw [← this]
    simp [slots]

/-! ## Strings without `\uXXXX` -/

theorem unescape_simple {e x : UInt8} (h : simpleEscape e = some x) (t : Bytes) : unescapeString (92 :: e :: t) = x :: unescapeString t := by
  have key : ∀ j : Fin 256, ∀ y, simpleEscape (UInt8.ofNat j.val) = some y → unescapeChar (UInt8.ofNat j.val) = some y := by decide +kernel
  have := key ⟨e.toNat, e.toNat_lt⟩ x
  simp only [UInt8.ofNat_toNat] at this
  rw [unescapeString, if_pos rfl, this h]

theorem unescape_plain {c : UInt8} (h : c ≠ 92) (t : Bytes) : unescapeString (c :: t) = c :: unescapeString t := by
  cases t with
  | nil => rfl
  | cons d t => rw [unescapeString, if_neg h]

theorem unescape_lex {t v : Bytes} (h : lexString (t ++ [34]) = some (v, [])) (hn : noUni t = true) : unescapeString t = v := by
  have hb := jstr_body ⟨v, h⟩
  induction hb generalizing v with
  | nil => simp [lexString] at h; subst h; rfl
  | @plain c t h1 h2 h3 hb ih =>
    have hn' : noUni t = true := by
      cases t with
      | nil => rfl
      | cons d t => rw [noUni, if_neg h2] at hn; exact hn
    rw [unescape_plain h2]
    rw [List.cons_append, lexString.eq_def] at h
    simp only [if_neg h1, if_neg h2, if_neg h3] at h
    cases hl : lexString (t ++ [34]) with
    | none => rw [hl] at h; cases h
    | some x =>
      obtain ⟨v', r'⟩ := x
      rw [hl] at h
      simp at h
      obtain ⟨rfl, rfl⟩ := h
      rw [ih hl hn']
  | @simple e x t h1 h2 hb ih =>
    have hn' : noUni t = true := by
      rw [noUni, if_pos rfl] at hn
      simp at hn
      exact hn.2
    rw [unescape_simple h1]
    rw [List.cons_append, List.cons_append, lexString.eq_def] at h
    simp only [if_neg (show ¬ (92 : UInt8) = 34 by decide), if_pos, if_neg h2, h1] at h
    cases hl : lexString (t ++ [34]) with
    | none => rw [hl] at h; cases h
    | some x =>
      obtain ⟨v', r'⟩ := x
      rw [hl] at h
      simp at h
      obtain ⟨rfl, rfl⟩ := h
      rw [ih hl hn']
  | hex => simp [noUni] at hn

theorem unescapes (t : Bytes) : Unescapes t (unescapeString t) := by
  have key : ∀ j : Fin 256, simpleEscape (UInt8.ofNat j.val) = unescapeChar (UInt8.ofNat j.val) := by decide +kernel
  have he : ∀ e, simpleEscape e = unescapeChar e := by
    intro e
    have := key ⟨e.toNat, e.toNat_lt⟩
    simpa only [UInt8.ofNat_toNat] using this
  induction t using unescapeString.induct with
  | case1 => exact .nil
  | case2 c => exact .other (fun _ e h => nomatch h) .nil
  | case3 d t e h1 ih =>
    rw [unescapeString, if_pos rfl, h1]
    exact .simple (by rw [he, h1]) ih
  | case4 d t h1 ih =>
    rw [unescapeString, if_pos rfl, h1]
    exact .other (fun _ e h => by cases h; rw [he, h1]) ih
  | case5 c d t h1 ih =>
    rw [unescapeString, if_neg h1]
    exact .other (fun h => absurd h h1) ih

theorem unescapes_unique {t v : Bytes} (h : Unescapes t v) : v = unescapeString t := by
  have key : ∀ j : Fin 256, simpleEscape (UInt8.ofNat j.val) = unescapeChar (UInt8.ofNat j.val) := by decide +kernel
  have he : ∀ e, simpleEscape e = unescapeChar e := by
    intro e
    have := key ⟨e.toNat, e.toNat_lt⟩
    simpa only [UInt8.ofNat_toNat] using this
  induction h with
  | nil => rfl
  | simple hx _ ih => rw [unescape_simple hx, ih]
  | @other c t v hc _ ih =>
    cases t with
    | nil => rw [ih]; rfl
    | cons d t =>
      rw [unescapeString]
      by_cases h92 : c = 92
      · have := hc h92 d (by simp)
        rw [he] at this
        rw [if_pos h92, this, ih]
      · rw [if_neg h92, ih]

end L8w8jwt
