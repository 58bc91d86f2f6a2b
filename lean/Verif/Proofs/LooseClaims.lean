import Verif.Proofs.Loose
/-!
# The claims loop on relaxed JSON
-/

namespace L8w8jwt
open Spec

variable {env : Env}

/-! ## Classification of words -/

theorem strncmp_word (k v q : Bytes) (c : UInt8) (hv : 0 ∉ v) (hk : 0 ∉ k) (hc : c ∉ k) :
    ∃ r, strncmp (v ++ c :: q) (k ++ [0]) k.length = .ok r ∧ (r = 0 ↔ k <+: v) := by
  induction k generalizing v with
  | nil =>
    refine ⟨0, ?_, by simp⟩
    simp [strncmp]
  | cons x k ih =>
    simp only [List.mem_cons, not_or] at hk hc
    have hne : ∀ a b : UInt8, a ≠ b → ((a.toNat : Int) - (b.toNat : Int)) ≠ 0 := by
      intro a b h e
      apply h
      apply UInt8.toNat_inj.mp
      omega
    cases v with
    | nil =>
      refine ⟨_, by rw [List.nil_append, List.cons_append, List.length_cons, strncmp, if_pos hc.1], ?_⟩
      simp [hne c x hc.1]
    | cons y v =>
      simp only [List.mem_cons, not_or] at hv
      by_cases hy : y = x
      · subst hy
        obtain ⟨r, e, h⟩ := ih v hv.2 hk.2 hc.2
        refine ⟨r, ?_, ?_⟩
        · rw [List.cons_append, List.cons_append, List.length_cons, strncmp, if_neg (by simp), if_neg (fun h => hv.1 h.symm), e]
        · rw [h, List.cons_prefix_cons]; simp
      · refine ⟨_, by rw [List.cons_append, List.cons_append, List.length_cons, strncmp, if_pos hy], ?_⟩
        rw [List.cons_prefix_cons]
        simp only [hne y x hy, false_iff, not_and]
        intro h; exact absurd h.symm hy

theorem prefix_length_eq {a b : Bytes} (h : a <+: b) (hl : a.length = b.length) : b = a := (h.eq_of_length hl).symm

theorem word_nul {v : Bytes} (hv : Word v) : 0 ∉ v := by
  intro hx
  have := word_chars hv 0 hx
  revert this; decide

theorem ends_not {c : UInt8} (hc : letter c = false) : c ∉ str "true" ∧ c ∉ str "false" ∧ c ∉ str "null" := by
  have h : ∀ l : Bytes, (∀ x ∈ l, letter x = true) → c ∉ l := by
    intro l hl hx
    rw [hl c hx] at hc; cases hc
  exact ⟨h _ (by decide), h _ (by decide), h _ (by decide)⟩

/-- The classification of a word. -/
theorem primType_word {p v q : Bytes} (hv : Word v) (hq : Ends q) {t : Tok}
    (h1 : t.start = p.length) (h2 : t.end_ = (p.length + v.length : Nat)) :
    primType env (p ++ (v ++ q)) t = .ok (itemType env.checknum v) := by
  have hl : t.end_ - t.start = v.length := by omega
  have ha : at_ (p ++ (v ++ q)) t.start = v ++ q := by rw [at_, h1]; simp
  obtain ⟨c, q', rfl, hc⟩ := hq
  have hv0 := word_nul hv
  obtain ⟨c1, c2, c3⟩ := ends_not hc
  obtain ⟨r1, e1, z1⟩ := strncmp_word (str "true") v q' c hv0 (by decide) c1
  obtain ⟨r2, e2, z2⟩ := strncmp_word (str "false") v q' c hv0 (by decide) c2
  obtain ⟨r3, e3, z3⟩ := strncmp_word (str "null") v q' c hv0 (by decide) c3
  have e1' : strncmp (v ++ c :: q') (str "true" ++ [0]) 4 = .ok r1 := e1
  have e2' : strncmp (v ++ c :: q') (str "false" ++ [0]) 5 = .ok r2 := e2
  have e3' : strncmp (v ++ c :: q') (str "null" ++ [0]) 4 = .ok r3 := e3
  obtain ⟨n1, n2, n3⟩ := word_head hv
  have hrd : rdN (v ++ c :: q') (t.end_ - t.start).toNat = .ok v := by
    rw [hl]; unfold rdN; rw [if_pos (by simp)]; simp
  have hbool : (v.length ≤ 5 ∧ (r1 = 0 ∨ r2 = 0)) ↔ (v = str "true" ∨ v = str "false" ∨ (v.length = 5 ∧ v.take 4 = str "true")) := by
    rw [z1, z2]
    constructor
    · rintro ⟨h5, ⟨s, hs⟩ | h⟩
      · have hlen : v.length = 4 + s.length := by rw [← hs]; simp [str]; omega
        rcases s with _ | ⟨a, s⟩
        · exact Or.inl (by rw [← hs]; simp)
        · refine Or.inr (Or.inr ⟨?_, ?_⟩)
          · simp at hlen; omega
          · rw [← hs]; rfl
      · refine Or.inr (Or.inl (prefix_length_eq h ?_))
        have := h.length_le
        have h6 : (str "false").length = 5 := rfl
        omega
    · rintro (rfl | rfl | ⟨h, h'⟩)
      · exact ⟨by decide, Or.inl (List.prefix_refl _)⟩
      · exact ⟨by decide, Or.inr (List.prefix_refl _)⟩
      · exact ⟨by omega, Or.inl (by rw [← h']; exact List.take_prefix 4 v)⟩
  have hnull : ((v.length : Int) = 4 ∧ r3 = 0) ↔ v = str "null" := by
    rw [z3]
    constructor
    · rintro ⟨h4, h⟩
      refine prefix_length_eq h ?_
      have h6 : (str "null").length = 4 := rfl
      omega
    · rintro rfl
      exact ⟨rfl, List.prefix_refl _⟩
  unfold primType itemType
  rw [ha]
  simp only
  rw [hrd, hl, if_neg n1, if_neg n2, if_neg n3]
  have hb : (if (v.length : Int) ≤ 5 then do
        let a ← strncmp (v ++ c :: q') (str "true" ++ [0]) 4
        if a = 0 then .ok true
        else do
          let b ← strncmp (v ++ c :: q') (str "false" ++ [0]) 5
          .ok (b = 0 : Bool)
      else .ok false : Res Bool) = .ok (decide (v = str "true" ∨ v = str "false" ∨ (v.length = 5 ∧ v.take 4 = str "true"))) := by
    have hd : decide (v = str "true" ∨ v = str "false" ∨ (v.length = 5 ∧ v.take 4 = str "true")) = decide (v.length ≤ 5 ∧ (r1 = 0 ∨ r2 = 0)) :=
      decide_eq_decide.mpr hbool.symm
    rw [hd, e1', e2']
    by_cases h5 : v.length ≤ 5
    · rw [if_pos (by omega)]
      by_cases hr : r1 = 0 <;> simp [bind, Except.bind, hr, h5]
    · rw [if_neg (by omega)]; simp [h5]
  have hn : (if (v.length : Int) = 4 then do
        let a ← strncmp (v ++ c :: q') (str "null" ++ [0]) 4
        .ok (a = 0 : Bool)
      else .ok false : Res Bool) = .ok (decide (v = str "null")) := by
    have hd : decide (v = str "null") = decide ((v.length : Int) = 4 ∧ r3 = 0) := decide_eq_decide.mpr hnull.symm
    rw [hd, e3']
    by_cases h4 : (v.length : Int) = 4 <;> simp [bind, Except.bind, h4]
  rw [hb, hn]
  simp only [bind, Except.bind, decide_eq_true_eq]
  by_cases hx : v = str "true" ∨ v = str "false" ∨ (v.length = 5 ∧ v.take 4 = str "true")
  · rw [if_pos hx, if_pos hx]
  · rw [if_neg hx, if_neg hx]
    by_cases hy : v = str "null"
    · rw [if_pos hy, if_pos hy]
    · rw [if_neg hy, if_neg hy]
      split
      · rfl
      · split <;> rfl

/-! ## Values -/

theorem item_ne {v q : Bytes} (h : ItemText v q) : v ≠ [] := by
  rcases h with ⟨b, -, rfl⟩ | ⟨h, -⟩ | h
  · simp
  · exact word_ne h
  · rintro rfl; cases h

theorem claimType_item {v p q : Bytes} (hv : ItemText v q) {nested rest : List Tok} (cap r : Nat)
    (hn : ∀ x ∈ nested, 0 ≤ x.end_ ∧ x.end_ ≤ (p.length + v.length : Nat)) (hn0 : composite v = false → nested = []) :
    claimType env (p ++ (v ++ q)) cap r (headTok p.length v) (nested ++ rest) =
      (after env cap r (p.length + v.length : Nat) v rest).bind fun rest => .ok (itemType env.checknum v, rest) := by
  rcases hv with ⟨b, hb, rfl⟩ | ⟨hw, hq⟩ | hc
  · rw [hn0 rfl, after]
    simp [headTok, claimType, composite, itemType]
    rfl
  · obtain ⟨n1, n2, n3⟩ := word_head hw
    have hc : composite v = false := by simp [composite, n2, n3]
    rw [hn0 hc, after, hc]
    simp only [headTok, if_neg n1, if_neg n2, if_neg n3, claimType]
    rw [primType_word hw hq rfl (by simp)]
    rfl
  · have hcc := hc
    simp only [composite, Bool.or_eq_true, beq_iff_eq] at hcc
    rcases hcc with h | h
    · have h1 : headTok p.length v = ⟨.array, p.length, (p.length + v.length : Nat)⟩ := by unfold headTok; rw [h]; rfl
      have h3 : itemType env.checknum v = some 5 := by unfold itemType; rw [h]; rfl
      rw [h1, h3, after, hc, if_pos rfl]
      simp only [claimType, skipNested_app _ _ _ _ (fun x hx => (hn x hx).2)]
      rfl
    · have h1 : headTok p.length v = ⟨.object, p.length, (p.length + v.length : Nat)⟩ := by unfold headTok; rw [h]; rfl
      have h3 : itemType env.checknum v = some 6 := by unfold itemType; rw [h]; rfl
      rw [h1, h3, after, hc, if_pos rfl]
      simp only [claimType, skipNested_app _ _ _ _ (fun x hx => (hn x hx).2)]
      rfl

theorem itemType_string {num : Bytes → Nat} {v : Bytes} {ty : Int} (h : itemType num v = some ty) :
    ty = L8W8JWT_CLAIM_TYPE_STRING ↔ v.head? = some 34 := by
  unfold itemType at h
  constructor
  · intro e
    by_cases h1 : v.head? = some 34
    · exact h1
    · rw [if_neg h1] at h
      subst e
      repeat' split at h
      all_goals (exfalso; revert h; decide)
  · intro e
    rw [if_pos e] at h
    exact (Option.some.inj h).symm

theorem item_string {v q : Bytes} (hv : ItemText v q) (h : v.head? = some 34) : ∃ b, Quoted b ∧ v = 34 :: (b ++ [34]) := by
  rcases hv with hv | ⟨hw, -⟩ | hc
  · exact hv
  · exact absurd h (word_head hw).1
  · simp [composite, h] at hc

/-- The text of the head token of an item. -/
theorem slice_item {v p q : Bytes} (hv : ItemText v q) :
    slice (p ++ (v ++ q)) (headTok p.length v) = if v.head? = some 34 then unquote v else v := by
  by_cases h : v.head? = some 34
  · obtain ⟨b, -, rfl⟩ := item_string hv h
    rw [if_pos h, unquote_eq]
    have := slice_eq (p := p ++ [34]) (v := b) (q := 34 :: q) (t := headTok p.length (34 :: (b ++ [34])))
      (by simp [headTok]) (by simp [headTok]; omega)
    simp only [List.append_assoc, List.cons_append, List.nil_append] at this ⊢
    exact this
  · rw [if_neg h]
    exact slice_eq (by unfold headTok; rw [if_neg h]; split <;> (try split) <;> rfl)
      (by unfold headTok; rw [if_neg h]; split <;> (try split) <;> rfl)

theorem headTok_string (v : Bytes) (pos : Nat) : (headTok pos v).type = .string ↔ v.head? = some 34 := by
  unfold headTok
  by_cases h : v.head? = some 34
  · simp [h]
  · rw [if_neg h]
    simp only [h, iff_false]
    split
    · simp
    · split <;> simp

theorem headTok_end {v q : Bytes} (hv : ItemText v q) (pos : Nat) : (pos : Int) < (headTok pos v).end_ := by
  have hne := List.length_pos_iff.mpr (item_ne hv)
  by_cases h : v.head? = some 34
  · obtain ⟨b, -, rfl⟩ := item_string hv h
    simp [headTok]
    omega
  · unfold headTok
    rw [if_neg h]
    split
    · simp only; omega
    · split <;> (simp only; omega)

/-! ## The loop -/

/-- The return code of parsing claims. -/
def parseRc (ok : Bool) : Nat := if ok then L8W8JWT_SUCCESS else L8W8JWT_DECODE_FAILED_INVALID_TOKEN_FORMAT

/-- Looking at the slots behind the last token. -/
def lookBehind (env : Env) (cap r : Nat) (vend : Int) : Behind → Nat × List DClaim → Res (Nat × List DClaim)
  | .none, x => .ok x
  | .one, x => (slackSlot env cap r).bind fun _ => .ok x
  | .two, x => (skipNested env cap r vend []).bind fun _ => .ok x

theorem claim_eq {num : Bytes → Nat} {k v : Item} {d : DClaim} {json pk qk pv qv : Bytes} (h : ItemClaim num k v d)
    (hk : k.text.head? = some 34) (ek : json = pk ++ (k.text ++ qk)) (ev : json = pv ++ (v.text ++ qv))
    (ik : ItemText k.text qk) (iv : ItemText v.text qv) : mkClaim json (headTok pk.length k.text) (headTok pv.length v.text) d.type = d := by
  have h1 : slice json (headTok pk.length k.text) = unquote k.text := by rw [ek, slice_item ik, if_pos hk]
  have h2 : slice json (headTok pv.length v.text) = if v.text.head? = some 34 then unquote v.text else v.text := by rw [ev, slice_item iv]
  have hs := itemType_string h.type
  unfold mkClaim
  rw [h1, h2, ← unescapes_unique h.key]
  by_cases hv : v.text.head? = some 34
  · rw [if_pos hv, if_pos (hs.mpr hv), ← unescapes_unique (h.string hv)]
  · rw [if_neg hv, if_neg (fun e => hv (hs.mp e)), ← h.other hv]

theorem loop_items {json : Bytes} {lo : Nat} {l : List Item} {toks : List Tok} {ok : Bool} {ds : List DClaim} {b : Behind}
    (hp : Pairs env.checknum l ok ds b) (ht : ItemToks json lo l toks) :
    ∃ vend, ((0 : Int) ≤ vend ∧ vend ≤ json.length) ∧ ∀ cap r fuel, toks.length ≤ fuel →
      loopPure env json cap r fuel toks = lookBehind env cap r vend b (parseRc ok, ds) := by
  have hfin : ∀ cap r fuel, loopPure env json cap r fuel [] = .ok (L8W8JWT_SUCCESS, []) := by intro _ _ f; cases f <;> rfl
  induction hp generalizing lo toks with
  | nil =>
    cases ht
    exact ⟨0, ⟨by omega, by omega⟩, fun cap r fuel _ => hfin _ _ _⟩
  | single h1 =>
    cases ht with
    | @cons _ size p v q nested ts l e hlo hi hsz hn hn0 ht =>
      cases ht
      have : nested = [] := by
        simp only at h1
        exact List.length_eq_zero_iff.mp (by omega)
      subst this
      refine ⟨0, ⟨by omega, by omega⟩, fun cap r fuel hf => ?_⟩
      obtain ⟨fuel, rfl⟩ : ∃ f, fuel = f + 1 := ⟨fuel - 1, by simp at hf; omega⟩
      rfl
  | nested h1 =>
    cases ht with
    | @cons _ size p v q nested ts l e hlo hi hsz hn hn0 ht =>
      cases ht
      refine ⟨0, ⟨by omega, by omega⟩, fun cap r fuel hf => ?_⟩
      obtain ⟨fuel, rfl⟩ : ∃ f, fuel = f + 1 := ⟨fuel - 1, by simp at hf; omega⟩
      cases nested with
      | nil => simp at hsz h1; omega
      | cons n ns =>
        have hc : composite v = true := by
          cases hc : composite v with
          | true => rfl
          | false => exact absurd (hn0 hc) (by simp)
        have hty : (headTok p.length v).type ≠ .string := by
          rw [ne_eq, headTok_string]
          intro h
          simp [composite, h] at hc
        simp only [List.cons_append, loopPure, if_pos hty]
        rfl
  | key h1 =>
    cases ht with
    | @cons _ size p v q nested ts l e hlo hi hsz hn hn0 ht =>
      cases ht with
      | @cons _ size' p' v' q' nested' ts' l' e' hlo' hi' hsz' hn' hn0' ht' =>
        refine ⟨0, ⟨by omega, by omega⟩, fun cap r fuel hf => ?_⟩
        obtain ⟨fuel, rfl⟩ : ∃ f, fuel = f + 1 := ⟨fuel - 1, by simp at hf; omega⟩
        have hty : (headTok p.length v).type ≠ .string := by
          rw [ne_eq, headTok_string]
          exact h1
        cases nested with
        | nil => simp only [List.nil_append, loopPure, if_pos hty]; rfl
        | cons n ns => simp only [List.cons_append, loopPure, if_pos hty]; rfl
  | value h1 h2 =>
    cases ht with
    | @cons _ size p v q nested ts l e hlo hi hsz hn hn0 ht =>
      simp only at h1 h2
      have hnest : nested = [] := hn0 (by
        cases hc : composite v with
        | false => rfl
        | true => simp [composite, h1] at hc)
      subst hnest
      cases ht with
      | @cons _ size' p' v' q' nested' ts' l' e' hlo' hi' hsz' hn' hn0' ht' =>
        refine ⟨0, ⟨by omega, by omega⟩, fun cap r fuel hf => ?_⟩
        obtain ⟨fuel, rfl⟩ : ∃ f, fuel = f + 1 := ⟨fuel - 1, by simp at hf; omega⟩
        have hty : ¬ (headTok p.length v).type ≠ .string := by
          rw [ne_eq, headTok_string]
          exact fun h => h h1
        have hc : composite v' = false := by
          cases hc : composite v' with
          | false => rfl
          | true =>
            simp only [composite, Bool.or_eq_true, beq_iff_eq] at hc
            unfold itemType at h2
            rcases hc with h | h <;> rw [h] at h2 <;> simp at h2
        have hct := claimType_item (env := env) (p := p') hi' (rest := ts') cap r hn' hn0'
        rw [← e'] at hct
        simp only [List.nil_append, loopPure, if_neg hty, hct, after, hc]
        simp only [h2]
        rfl
  | last h1 h2 h3 =>
    cases ht with
    | @cons _ size p v q nested ts l e hlo hi hsz hn hn0 ht =>
      simp only at h1
      have hnest : nested = [] := hn0 (by
        cases hc : composite v with
        | false => rfl
        | true => simp [composite, h1] at hc)
      subst hnest
      cases ht with
      | @cons _ size' p' v' q' nested' ts' l' e' hlo' hi' hsz' hn' hn0' ht' =>
        cases ht'
        have hlen : p'.length + v'.length ≤ json.length := by rw [e']; simp
        refine ⟨(p'.length + v'.length : Nat), ⟨by omega, by omega⟩, fun cap r fuel hf => ?_⟩
        obtain ⟨fuel, rfl⟩ : ∃ f, fuel = f + 1 := ⟨fuel - 1, by simp at hf; omega⟩
        have hty : ¬ (headTok p.length v).type ≠ .string := by
          rw [ne_eq, headTok_string]
          exact fun h => h h1
        have hct := claimType_item (env := env) (p := p') hi' (rest := []) cap r hn' hn0'
        have hmk := claim_eq h2 h1 e e' hi hi'
        have htp := h2.type
        simp only at h3 htp hmk
        rw [← e'] at hct
        simp only [List.nil_append, loopPure, if_neg hty, hct, after, h3, if_true, htp, lookBehind]
        rcases skipNested_ok env cap r (p'.length + v'.length : Nat) [] with ⟨l', es, hs⟩ | ⟨-, es⟩
        · have : l' = [] := List.suffix_nil.mp hs
          subst this
          rw [es]
          simp only [bind, Except.bind, hfin, hmk]
          rfl
        · rw [es]; rfl
  | @cons k0 v0 l0 d ok ds b h1 h2 h3 hp ih =>
    cases ht with
    | @cons _ size p v q nested ts l e hlo hi hsz hn hn0 ht =>
      simp only at h1
      have hnest : nested = [] := hn0 (by
        cases hc : composite v with
        | false => rfl
        | true => simp [composite, h1] at hc)
      subst hnest
      cases ht with
      | @cons _ size' p' v' q' nested' ts' l' e' hlo' hi' hsz' hn' hn0' ht' =>
        obtain ⟨vend, hvend, hloop⟩ := ih ht'
        refine ⟨vend, hvend, fun cap r fuel hf => ?_⟩
        obtain ⟨fuel, rfl⟩ : ∃ f, fuel = f + 1 := ⟨fuel - 1, by simp at hf; omega⟩
        have hty : ¬ (headTok p.length v).type ≠ .string := by
          rw [ne_eq, headTok_string]
          exact fun h => h h1
        have hct := claimType_item (env := env) (p := p') hi' (rest := ts') cap r hn' hn0'
        have hmk := claim_eq h2 h1 e e' hi hi'
        have htp := h2.type
        simp only at h3 htp hmk
        have hafter : after env cap r (p'.length + v'.length : Nat) v' ts' = .ok ts' := by
          unfold after
          split
          · rename_i hc
            cases ht' with
            | nil => exact absurd (h3 rfl) (by rw [hc]; simp)
            | @cons _ _ p2 v2 _ _ _ _ e2 hlo2 hi2 _ _ _ _ =>
              rw [skipNested, if_neg]
              have := headTok_end hi2 p2.length
              omega
          · rfl
        rw [← e', hafter] at hct
        have hl := hloop cap r fuel (by simp at hf; omega)
        simp only [List.nil_append, loopPure, if_neg hty, hct, htp]
        simp only [bind, Except.bind, hl, hmk]
        cases b with
        | none => rfl
        | one =>
          simp only [lookBehind]
          cases slackSlot env cap r <;> rfl
        | two =>
          simp only [lookBehind]
          cases skipNested env cap r vend [] <;> rfl

/-- Every sequence of items is taken two by two in one way. -/
theorem pairs_exist (num : Bytes → Nat) : ∀ l : List Item, ∃ ok ds b, Pairs num l ok ds b
  | [] => ⟨_, _, _, .nil⟩
  | [k] => by
    by_cases h : k.size = 1
    · exact ⟨_, _, _, .single h⟩
    · exact ⟨_, _, _, .nested h⟩
  | k :: v :: l => by
    by_cases hk : k.text.head? = some 34
    · cases hty : itemType num v.text with
      | none => exact ⟨_, _, _, .value hk hty⟩
      | some ty =>
        have hc : ItemClaim num k v ⟨unescapeString (unquote k.text),
            if v.text.head? = some 34 then unescapeString (unquote v.text) else v.text, ty⟩ := by
          refine ⟨hty, unescapes _, fun h => ?_, fun h => ?_⟩
          · simp only [if_pos h]; exact unescapes _
          · simp only [if_neg h]
        cases l with
        | nil =>
          cases hcm : composite v.text with
          | true => exact ⟨_, _, _, .last hk hc hcm⟩
          | false => exact ⟨_, _, _, .cons hk hc (fun _ => hcm) .nil⟩
        | cons x l =>
          obtain ⟨ok, ds, b, h⟩ := pairs_exist num (x :: l)
          exact ⟨_, _, _, .cons hk hc (fun h => (nomatch h)) h⟩
    · exact ⟨_, _, _, .key hk⟩

end L8w8jwt
