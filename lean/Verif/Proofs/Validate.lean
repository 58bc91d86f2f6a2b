import Verif.Proofs.ParseClaims
import Verif.Props.Util
import Verif.Props.Claim
/-!
# Claim validation
-/

namespace L8w8jwt
open Spec

variable {env : Env} {p : DecParams} {cs : List Claim} {ds : List DClaim}

/-! ## Lookup -/

theorem cString_view (v z : Bytes) (h0 : 0 ∉ v) : cString (v ++ 0 :: z) = v := by
  induction v with
  | nil => simp [cString]
  | cons c v ih =>
    simp only [List.mem_cons, not_or] at h0
    rw [List.cons_append, cString_cons, if_neg (fun e => h0.1 e.symm), ih h0.2]

theorem _root_.L8w8jwt.Spec.View.key_mem {c : Claim} {d : DClaim} (h : View c d) : ∃ b, c.key = some b ∧ 0 ∈ b.mem ∧ claimKey c = d.key := by
  obtain ⟨⟨i, z, h1, -⟩, -, -, h0, -⟩ := h
  refine ⟨_, h1, by simp, ?_⟩
  simp only [claimKey, h1]
  exact cString_view d.key z h0

theorem _root_.L8w8jwt.Spec.Views.length (h : Views cs ds) : cs.length = ds.length := by
  induction h with
  | nil => rfl
  | cons _ _ ih => simp [ih]

theorem _root_.L8w8jwt.Spec.Views.keys (h : Views cs ds) : ∀ c ∈ cs, ∃ b, c.key = some b ∧ 0 ∈ b.mem := by
  induction h with
  | nil => intro c hc; cases hc
  | cons v _ ih =>
    intro c hc
    rcases List.mem_cons.mp hc with rfl | hc
    · obtain ⟨b, h1, h2, -⟩ := v.key_mem; exact ⟨b, h1, h2⟩
    · exact ih c hc

/-- The claim found in the array is the one found in the list. -/
theorem _root_.L8w8jwt.Spec.Views.find (h : Views cs ds) (q : Bytes → Bool) :
    (findClaim q cs = none ∧ ds.find? (fun d => q d.key) = none) ∨
    ∃ i c d, findClaim q cs = some i ∧ cs[i]? = some c ∧ ds.find? (fun d => q d.key) = some d ∧ View c d := by
  induction h with
  | nil => exact Or.inl ⟨rfl, rfl⟩
  | cons v _ ih =>
    rename_i c d l m _
    obtain ⟨b, -, -, hk⟩ := v.key_mem
    simp only [findClaim, hk]
    by_cases hq : q d.key
    · right
      exact ⟨0, c, d, by simp [hq], rfl, by simp [hq], v⟩
    · rcases ih with ⟨h1, h2⟩ | ⟨i, c', d', h1, h2, h3, h4⟩
      · left; simp [hq, h1, h2]
      · right; exact ⟨i + 1, c', d', by simp [hq, h1], by simpa using h2, by simp [hq, h3], h4⟩

theorem lookup_eq (h : Views cs ds) (key : String) (hk : (str key).length = 3) (h0 : ∀ c ∈ str key, c ≠ 0) :
    ∃ o, lookup cs key = .ok o ∧ ((o = none ∧ claimStarting (str key) ds = none) ∨
      ∃ c d, o = some c ∧ claimStarting (str key) ds = some d ∧ View c d) := by
  have ht : (str key ++ [0]).take 3 = str key := by rw [← hk]; simp
  have h1 := (C15_get_claim_partial cs (str key ++ [0]) 3 (by decide) (by simp; omega) (by rw [ht]; exact h0) h.keys).1
  rw [ht] at h1
  unfold lookup
  rw [h1]
  simp only [bind, Except.bind]
  rcases h.find (fun x => (str key).isPrefixOf x) with ⟨h2, h3⟩ | ⟨i, c, d, h2, h3, h4, h5⟩
  · exact ⟨none, by simp [h2], Or.inl ⟨rfl, h3⟩⟩
  · exact ⟨some c, by simp [h2, h3], Or.inr ⟨c, d, rfl, h4, h5⟩⟩

/-! ## String claims -/

theorem strncmp_value (v z e : Bytes) (n : Nat) (h0 : 0 ∉ v) (hv : v.length = n) (he : n ≤ e.length ∨ 0 ∈ e.take n) :
    ∃ r, strncmp (v ++ 0 :: z) e n = .ok r ∧ (r = 0 ↔ v = e.take n) := by
  induction v generalizing e n with
  | nil => subst hv; exact ⟨0, by simp [strncmp], by simp⟩
  | cons x v ih =>
    subst hv
    simp only [List.mem_cons, not_or] at h0
    cases e with
    | nil => simp at he
    | cons y e =>
      simp only [List.cons_append, List.length_cons, strncmp, List.take_succ_cons, List.cons.injEq]
      by_cases hxy : x = y
      · subst hxy
        rw [if_neg (by simp), if_neg (fun h => h0.1 h.symm)]
        obtain ⟨r, h1, h2⟩ := ih e v.length h0.2 rfl (by
          rcases he with he | he
          · left; simpa using he
          · right
            simp only [List.length_cons, List.take_succ_cons, List.mem_cons] at he
            exact he.resolve_left h0.1)
        exact ⟨r, h1, by simp [h2]⟩
      · rw [if_pos hxy]
        refine ⟨_, rfl, ?_⟩
        simp only [hxy, false_and, iff_false]
        intro h
        apply hxy
        apply UInt8.toNat_inj.mp
        omega

/-- Set the flag or not. -/
def flagIf (b : Bool) (f v : VRes) : VRes := v ||| (if b then f else 0)

theorem flagIf_false (f v : VRes) : flagIf false f v = v := by simp [flagIf]
theorem flagIf_true (f v : VRes) : flagIf true f v = v ||| f := by simp [flagIf]

theorem arg_len {e : Bytes} {n : Nat} (h : argOk e n) :
    (if n ≠ 0 then .ok n else strlen e : Res Nat) = .ok (arg e n).length ∧ (arg e n).length ≤ e.length ∧
    e.take (arg e n).length = arg e n := by
  unfold argOk at h
  unfold arg
  by_cases hn : n = 0
  · subst hn
    simp only [if_true] at h
    simp only [ne_eq, not_true_eq_false, if_false, if_true]
    exact ⟨strlen_eq e h, cString_length_le e, take_cString e⟩
  · simp only [hn, if_false] at h
    simp only [hn, ne_eq, not_false_eq_true, if_true, if_false]
    have : (e.take n).length = n := by simp; omega
    rw [this]
    exact ⟨rfl, h, rfl⟩

theorem checkStr_eq (h : Views cs ds) (key : String) (hk : (str key).length = 3) (h0 : ∀ c ∈ str key, c ≠ 0)
    (expected : Option Bytes) (n : Nat) (he : ∀ e, expected = some e → argOk e n) (f v : VRes) :
    checkStr cs key expected n f v = .ok (flagIf (strFails (fun x => claimStarting x ds) key expected n) f v) := by
  unfold checkStr strFails
  cases expected with
  | none => simp [flagIf_false]
  | some e =>
    obtain ⟨o, h1, h2⟩ := lookup_eq h key hk h0
    obtain ⟨e1, e2, e3⟩ := arg_len (he e rfl)
    simp only [h1, e1, bind, Except.bind]
    rcases h2 with ⟨rfl, h2⟩ | ⟨c, d, rfl, h2, ⟨-, ⟨i, z, hv, hvl⟩, -, -, hv0⟩⟩
    · simp [h2, flagIf_true]
    · simp only [h2]
      by_cases hl : c.valueLength ≠ (arg e n).length
      · rw [if_pos hl]
        have : (d.value != arg e n) = true := by
          rw [bne_iff_ne]
          intro hx
          rw [hvl, hx] at hl
          exact hl rfl
        rw [this, flagIf_true]
      · rw [if_neg hl]
        have hl' : d.value.length = (arg e n).length := by rw [← hvl]; simpa using hl
        obtain ⟨r, r1, r2⟩ := strncmp_value d.value z e _ hv0 hl' (Or.inl e2)
        simp only [hv, Ptr.bytes, Option.map_some, deref, r1]
        rw [e3] at r2
        by_cases hr : r = 0
        · have : (d.value != arg e n) = false := by rw [bne_eq_false_iff_eq]; exact r2.mp hr
          simp [hr, this, flagIf_false]
        · have : (d.value != arg e n) = true := by rw [bne_iff_ne]; exact fun hx => hr (r2.mpr hx)
          simp [hr, this, flagIf_true]

/-! ## Time claims -/

theorem isSpace_eq (c : UInt8) : isSpace c = blank c := by
  have key : ∀ j : Fin 256, isSpace (UInt8.ofNat j.val) = blank (UInt8.ofNat j.val) := by decide +kernel
  have := key ⟨c.toNat, c.toNat_lt⟩
  simpa only [UInt8.ofNat_toNat] using this

theorem saturate_eq (x : Int) : saturate x = clamp x := by
  unfold saturate clamp llongMax llongMin
  split
  · omega
  · split <;> omega

theorem strtollDigits_eq (v z : Bytes) (acc : Nat) :
    strtollDigits (v ++ 0 :: z) acc = .ok ((v.takeWhile digit).foldl (fun a c => a * 10 + (c.toNat - 48)) acc) := by
  induction v generalizing acc with
  | nil => rfl
  | cons c v ih =>
    simp only [List.cons_append, strtollDigits, List.takeWhile_cons]
    by_cases hd : digit c = true
    · have hd' : isDigit c = true := hd
      rw [if_pos hd, if_pos hd', List.foldl_cons, ih]
    · have hd' : ¬ isDigit c = true := hd
      rw [if_neg hd, if_neg hd']; rfl

theorem strtoll_eq (v z : Bytes) : strtoll (v ++ 0 :: z) = .ok (leadingInt v) := by
  induction v with
  | nil => rfl
  | cons c v ih =>
    simp only [List.cons_append, strtoll, isSpace_eq]
    unfold leadingInt
    simp only [List.dropWhile_cons]
    cases hb : blank c with
    | true => simp only [if_true]; exact ih
    | false =>
      simp only [Bool.false_eq_true, if_false]
      unfold strtollSigned
      simp only
      by_cases h1 : c = 45
      · subst h1
        rw [if_pos rfl, strtollDigits_eq]
        simp only [bind, Except.bind, saturate_eq, digitsValue]
      · rw [if_neg h1]
        by_cases h2 : c = 43
        · subst h2
          rw [if_pos rfl, strtollDigits_eq]
          simp only [bind, Except.bind, saturate_eq, digitsValue]
        · rw [if_neg h2, ← List.cons_append, strtollDigits_eq]
          simp only [bind, Except.bind, saturate_eq]
          split
          · rename_i heq; cases heq; exact absurd rfl h1
          · rename_i heq; cases heq; exact absurd rfl h2
          · rfl

theorem timeArith_ok {now : Int} (hn : NowOk now) (tol : UInt8) (late : Bool) :
    timeArith (if late then now - tol.toNat else now + tol.toNat) = .ok (if late then now - tol.toNat else now + tol.toNat) := by
  have := tol.toNat_lt
  obtain ⟨h1, h2⟩ := hn
  unfold timeArith llongMin llongMax
  rw [if_pos]
  split <;> omega

theorem checkTime_eq (h : Views cs ds) (key : String) (hk : (str key).length = 3) (h0 : ∀ c ∈ str key, c ≠ 0) {now : Int}
    (hn : NowOk now) (enabled : Bool) (tol : UInt8) (late : Bool) (f v : VRes) :
    checkTime now cs key enabled tol late f v = .ok (flagIf (if late then lateFails (fun x => claimStarting x ds) key enabled now tol
      else earlyFails (fun x => claimStarting x ds) key enabled now tol) f v) := by
  unfold checkTime lateFails earlyFails
  cases enabled with
  | false => cases late <;> simp [flagIf_false]
  | true =>
    obtain ⟨o, h1, h2⟩ := lookup_eq h key hk h0
    simp only [h1, bind, Except.bind, Bool.not_true, Bool.false_eq_true, if_false, Bool.true_and]
    rcases h2 with ⟨rfl, h2⟩ | ⟨c, d, rfl, h2, ⟨-, ⟨i, z, hv, hvl⟩, -, -, hv0⟩⟩
    · simp [h2, flagIf_true]
    · simp only [h2, timeArith_ok hn, hv, Ptr.bytes, Option.map_some, deref, strtoll_eq]
      cases late with
      | true =>
        simp only [if_true]
        by_cases hx : now - tol.toNat > leadingInt d.value
        · simp [hx, flagIf_true]
        · simp [hx, flagIf_false]
      | false =>
        simp only [Bool.false_eq_true, if_false]
        by_cases hx : now + tol.toNat < leadingInt d.value
        · simp [hx, flagIf_true]
        · simp [hx, flagIf_false]

/-! ## Type -/

theorem _root_.L8w8jwt.Spec.TypAscii.defined (h : TypAscii env p ds) : TypDefined env p ds := by
  rintro hc e d he hd ⟨i, c, -, -, h3, h4, -⟩
  obtain ⟨h1, h2⟩ := h hc e d he hd
  have : c < 128 := by
    rcases h3 with h3 | h3
    · exact h1 c (List.mem_of_getElem? h3)
    · exact h2 c (List.mem_of_getElem? h3)
  exact absurd h4 (UInt8.not_le.mpr this)

theorem checkTyp_eq (h : Views cs ds) (he : ∀ e, p.validateTyp = some e → 0 ∈ e) (ha : TypDefined env p ds) (v : VRes) :
    checkTyp env cs p.validateTyp p.validateTypLength v =
      .ok (flagIf (typFails (fun x => claimStarting x ds) p.validateTyp p.validateTypLength) L8W8JWT_TYP_FAILURE v) := by
  unfold checkTyp typFails
  unfold TypDefined at ha
  cases hp : p.validateTyp with
  | none => simp [flagIf_false]
  | some e =>
    obtain ⟨o, h1, h2⟩ := lookup_eq h "typ" (by decide) (by decide)
    simp only [h1, bind, Except.bind]
    rcases h2 with ⟨rfl, h2⟩ | ⟨c, d, rfl, h2, ⟨-, ⟨i, z, hv, hvl⟩, -, -, hv0⟩⟩
    · simp [h2, flagIf_true]
    · simp only [h2]
      obtain ⟨r, r1, r2⟩ := C10_strncmpic_partial env.charSigned (d.value ++ 0 :: z) e p.validateTypLength (by simp) (he e hp)
        (by rw [cString_view _ _ hv0]; exact fun hs => ha hs.1 e d hp h2 hs.2)
      simp only [hv, Ptr.bytes, Option.map_some, r1]
      unfold equalIgnoreCase at r2
      rw [cString_view _ _ hv0] at r2
      generalize hb : (((d.value.take p.validateTypLength).map lower != ((cString e).take p.validateTypLength).map lower) ||
        p.validateTypLength == 0 || (d.value.isEmpty && (cString e).isEmpty)) = b
      by_cases hr : r = 0
      · obtain ⟨q1, q2, q3⟩ := r2.mp hr
        have : b = false := by
          rw [← hb]
          simp only [Bool.or_eq_false_iff, bne_eq_false_iff_eq, beq_eq_false_iff_ne, ne_eq, Bool.and_eq_false_iff]
          refine ⟨⟨q1, q2⟩, ?_⟩
          by_cases hd : d.value = []
          · right
            cases hc : cString e with
            | nil => exact absurd ⟨hd, hc⟩ q3
            | cons => rfl
          · left; simpa using hd
        simp [hr, this, flagIf_false]
      · have : b = true := by
          rw [← hb]
          cases hx : (((d.value.take p.validateTypLength).map lower != ((cString e).take p.validateTypLength).map lower) ||
            p.validateTypLength == 0 || (d.value.isEmpty && (cString e).isEmpty)) with
          | true => rfl
          | false =>
            exfalso
            simp only [Bool.or_eq_false_iff, bne_eq_false_iff_eq, beq_eq_false_iff_ne, ne_eq, Bool.and_eq_false_iff] at hx
            apply hr
            refine r2.mpr ⟨hx.1.1, hx.1.2, ?_⟩
            rintro ⟨q1, q2⟩
            rw [q1, q2] at hx
            simp at hx
        simp [hr, this, flagIf_true]

theorem or_comm8 (v a b c d e f g i : VRes) :
    v ||| a ||| b ||| c ||| d ||| e ||| f ||| g ||| i = v ||| (c ||| a ||| b ||| d ||| e ||| f ||| g ||| i) := by
  ext k
  simp only [BitVec.getElem_or]
  cases v[k] <;> cases a[k] <;> cases b[k] <;> cases c[k] <;> simp

/-- Claim validation adds exactly the flags of the specification, with claims looked up by the start of their names. -/
theorem validateClaims_eq (h : Views cs ds) (he : ExpectOk p) (hn : NowOk env.now) (ha : TypDefined env p ds) (v : VRes) :
    validateClaims env p cs v = .ok (v ||| claimFlags (fun x => claimStarting x ds) env.now p) := by
  obtain ⟨e1, e2, e3, e4, e5⟩ := he
  unfold validateClaims
  simp only [checkStr_eq h "sub" (by decide) (by decide) _ _ e2, checkStr_eq h "aud" (by decide) (by decide) _ _ e3,
    checkStr_eq h "iss" (by decide) (by decide) _ _ e1, checkStr_eq h "jti" (by decide) (by decide) _ _ e4,
    checkTime_eq h "exp" (by decide) (by decide) hn, checkTime_eq h "nbf" (by decide) (by decide) hn,
    checkTime_eq h "iat" (by decide) (by decide) hn, checkTyp_eq h e5 ha, bind, Except.bind, if_true, Bool.false_eq_true, if_false]
  unfold flagIf claimFlags
  rw [or_comm8]

theorem checkTyp_high (h : Views cs ds) (he : ∀ e, p.validateTyp = some e → 0 ∈ e) (ha : ¬ TypDefined env p ds) (v : VRes) :
    checkTyp env cs p.validateTyp p.validateTypLength v = .error .badCtype := by
  unfold TypDefined at ha
  simp only [Classical.not_imp, Classical.not_forall, Classical.not_not] at ha
  obtain ⟨hs, e, d, hp, hd, hr⟩ := ha
  unfold checkTyp
  rw [hp]
  obtain ⟨o, h1, h2⟩ := lookup_eq h "typ" (by decide) (by decide)
  simp only [h1, bind, Except.bind]
  rcases h2 with ⟨rfl, h2⟩ | ⟨c, d', rfl, h2, ⟨-, ⟨i, z, hv, hvl⟩, -, -, hv0⟩⟩
  · rw [hd] at h2; cases h2
  · rw [hd] at h2; cases h2
    simp only [hv, Ptr.bytes, Option.map_some, strncmpic]
    rw [hs, strncmpicLoop_high _ _ _ _ (by simp) (he e hp) (by rw [cString_view _ _ hv0]; exact hr)]

/-- Claim validation is defined exactly if the comparison of the types is. -/
theorem validateClaims_ok_iff (h : Views cs ds) (he : ExpectOk p) (hn : NowOk env.now) (v : VRes) :
    (∃ w, validateClaims env p cs v = .ok w) ↔ TypDefined env p ds := by
  constructor
  · intro hw
    refine Classical.byContradiction fun hc => ?_
    obtain ⟨w, hw⟩ := hw
    obtain ⟨e1, e2, e3, e4, e5⟩ := he
    unfold validateClaims at hw
    simp only [checkStr_eq h "sub" (by decide) (by decide) _ _ e2, checkStr_eq h "aud" (by decide) (by decide) _ _ e3,
      checkStr_eq h "iss" (by decide) (by decide) _ _ e1, checkStr_eq h "jti" (by decide) (by decide) _ _ e4,
      checkTime_eq h "exp" (by decide) (by decide) hn, checkTime_eq h "nbf" (by decide) (by decide) hn,
      checkTime_eq h "iat" (by decide) (by decide) hn, checkTyp_high h e5 hc, bind, Except.bind, if_true, Bool.false_eq_true, if_false] at hw
    cases hw
  · intro ha
    exact ⟨_, validateClaims_eq h he hn ha v⟩

end L8w8jwt
