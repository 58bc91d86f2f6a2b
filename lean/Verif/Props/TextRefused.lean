import Verif.Props.DefaultBuild

/-!
# Calls that are refused

What the texts of `l8w8jwt_decode`, `l8w8jwt_decode_raw` and `l8w8jwt_decode_raw_no_validation` do with arguments that are refused before
anything else is done: which code they return, and that nothing at all has changed then. The theorems hold in all builds and whatever
allocations fail.
-/

namespace L8w8jwt

namespace Spec

/-- The parameters are refused with a code: a pointer is NULL; a length is 0, or that of the key more than 8192; the algorithm is EdDSA in a build
without it. -/
inductive Refuses (env : Env) (p : DecParams) : Nat → Prop where
  | null : p.jwt = none ∨ p.verificationKey = none → Refuses env p Code.nullArg
  | length : p.jwt ≠ none → p.verificationKey ≠ none → p.jwtLength = 0 ∨ p.verificationKeyLength = 0 ∨ 8192 < p.verificationKeyLength → Refuses env p Code.invalidArg
  | eddsa : p.jwt ≠ none → p.verificationKey ≠ none → 0 < p.jwtLength → 0 < p.verificationKeyLength → p.verificationKeyLength ≤ 8192 → p.alg = 13 →
      env.eddsa = false → Refuses env p Code.unsupported

end Spec
open Spec

/-- The check of the parameters finds what is to be refused, and nothing else. -/
theorem validate_refuses {env : Env} {p : DecParams} {rc : Nat} (h : rc ≠ 0) : Refuses env p rc ↔ validateDecodingParams env (some p) = rc := by
  have k : L8W8JWT_MAX_KEY_SIZE = 8192 := rfl
  constructor
  · intro g
    clear h
    unfold validateDecodingParams
    cases g with
    | null h =>
      simp only []
      rw [if_pos (by rcases h with h | h <;> simp [h])]
    | length h1 h2 h3 =>
      simp only []
      rw [if_neg (by simp [h1, h2]), if_pos (by simp only [Bool.or_eq_true, decide_eq_true_eq]; omega)]
    | eddsa h1 h2 h3 h4 h5 h6 h7 =>
      simp only []
      rw [if_neg (by simp [h1, h2]), if_neg (by simp only [Bool.or_eq_true, decide_eq_true_eq]; omega), if_pos (by simp [h6, h7, L8W8JWT_ALG_ED25519])]
  · intro e
    unfold validateDecodingParams at e
    simp only [] at e
    split at e
    · rename_i g
      subst e
      exact .null (by simpa [Option.isNone_iff_eq_none] using g)
    · rename_i g
      have g1 : p.jwt ≠ none := fun x => g (by simp [x])
      have g2 : p.verificationKey ≠ none := fun x => g (by simp [x])
      split at e
      · rename_i g3
        subst e
        simp only [Bool.or_eq_true, decide_eq_true_eq] at g3
        exact .length g1 g2 (by omega)
      · rename_i g3
        simp only [Bool.or_eq_true, decide_eq_true_eq] at g3
        split at e
        · rename_i g4
          subst e
          simp only [Bool.and_eq_true, Bool.not_eq_true', decide_eq_true_eq] at g4
          exact .eddsa g1 g2 (by omega) (by omega) (by omega) g4.2 g4.1
        · exact absurd e.symm h

namespace C

variable {env : Env} {fuel d : Nat} {s : Sched} {st : St} {P : Blk} {p : DecParams}

theorem Refuses.ne {rc : Nat} (h : Refuses env p rc) : rc ≠ 0 := by
  cases h <;> decide

/-- Nothing is written. -/
theorem decoded_nothing {O1 O2 O3 : Option Blk} {h : Heap} {m : Blk → Option (List Val)} {rc : Nat} (hw : Wf st) (hh : h = st.heap)
    (D : Decoded fuel st O1 O2 O3 { rc := rc } h m) : m = st.mem := by
  subst hh
  refine kept_all hw D.kept fun b hb => ?_
  simp only [List.mem_cons, List.not_mem_nil, or_false] at hb
  rcases hb with h | h | h
  · exact D.validation b h.symm
  · exact D.claims b h.symm
  · exact D.length b h.symm

theorem raw_nothing {os : List (Option Blk)} {A1 L1 A2 L2 A3 L3 : Option Blk} {m : Blk → Option (List Val)} {rc : Nat} (hw : Wf st)
    (D : RawDone st os A1 L1 A2 L2 A3 L3 { rc := rc } st.heap m) (hos : ∀ b, some b ∈ os → some b ∉ [A1, L1, A2, L2, A3, L3] → m b = st.mem b) : m = st.mem := by
  refine kept_all hw D.kept fun b hb => ?_
  by_cases hx : some b ∈ [A1, L1, A2, L2, A3, L3]
  · simp only [List.mem_cons, List.not_mem_nil, or_false] at hx
    rcases hx with h | h | h | h | h | h
    · exact D.header b h.symm
    · exact D.headerLength b h.symm
    · exact D.payload b h.symm
    · exact D.payloadLength b h.symm
    · exact D.signature b h.symm
    · exact D.signatureLength b h.symm
  · exact hos b hb hx

/-- **C91** The text of `l8w8jwt_decode`: with an out argument for claims but none for their number it returns `L8W8JWT_NULL_ARG`; otherwise it refuses
parameters as `Refuses` says; and if these are in order, it returns `L8W8JWT_NULL_ARG` without an out argument for the result. Nothing has changed. -/
theorem C91_decode_text {O1 O2 O3 : Option Blk} (c : DecCall env fuel st P p [O1, O2, O3]) {rc : Nat}
    (h : (O2 ≠ none ∧ O3 = none ∧ rc = Code.nullArg) ∨ ((O3 = none → O2 = none) ∧ Refuses env p rc) ∨
      ((O3 = none → O2 = none) ∧ (∀ n, ¬ Refuses env p n) ∧ O1 = none ∧ rc = Code.nullArg)) :
    runFun (cx env fuel (d + 3)) Src.l8w8jwt_decode [.ptr (some (P, 0)), optV O1, optV O2, optV O3] s st = .ok (.int rc, st) := by
  have he : decode env (some p) O1.isNone O2.isNone O3.isNone s st.heap = .ok ({ rc := rc }, st.heap) := by
    have pair : (O3 = none → O2 = none) → ¬ (!O2.isNone && O3.isNone) = true := by
      intro h23 hx
      simp only [Bool.and_eq_true, Bool.not_eq_true', Option.isNone_iff_eq_none] at hx
      rw [h23 hx.2] at hx
      cases hx.1
    unfold decode
    rcases h with ⟨h2, h3, rfl⟩ | ⟨h23, h⟩ | ⟨h23, h, h1, rfl⟩
    · simp only []
      rw [if_pos (by subst h3; cases O2 <;> simp_all)]
      rfl
    · have hv := (validate_refuses (Refuses.ne h)).mp h
      simp only []
      rw [if_neg (pair h23), if_pos (by rw [hv]; exact Refuses.ne h), hv]
      rfl
    · have hv : validateDecodingParams env (some p) = L8W8JWT_SUCCESS := Decidable.byContradiction fun hx => h _ ((validate_refuses hx).mpr rfl)
      simp only []
      rw [if_neg (pair h23), if_neg (by rw [hv]; exact fun hx => hx rfl), if_pos (by simp [h1])]
      rfl
  obtain ⟨m, e, D⟩ := decode_text (d := d) c he
  rw [decoded_nothing c.wf rfl D] at e
  exact e

/-- The arguments for the segments are in order if each that is asked for has an argument for its length. -/
theorem rawArgs_bad {A1 L1 A2 L2 A3 L3 : Option Blk} : (rawArgs A1 L1 A2 L2 A3 L3).bad = false ↔ Paired A1 L1 ∧ Paired A2 L2 ∧ Paired A3 L3 := by
  unfold Paired RawArgs.bad rawArgs
  cases A1 <;> cases L1 <;> cases A2 <;> cases L2 <;> cases A3 <;> cases L3 <;> simp

/-- **C91** The text of `l8w8jwt_decode_raw`: without an out argument for the result, or with one for a segment but none for its length, it returns
`L8W8JWT_NULL_ARG`; otherwise it refuses parameters as `Refuses` says. Nothing has changed. -/
theorem C91_raw_text {O1 A1 L1 A2 L2 A3 L3 : Option Blk} (c : DecCall env fuel st P p [O1, A1, L1, A2, L2, A3, L3]) {rc : Nat}
    (h : ((O1 = none ∨ ¬ (Paired A1 L1 ∧ Paired A2 L2 ∧ Paired A3 L3)) ∧ rc = Code.nullArg) ∨
      (O1 ≠ none ∧ Paired A1 L1 ∧ Paired A2 L2 ∧ Paired A3 L3 ∧ Refuses env p rc)) :
    runFun (cx env fuel (d + 3)) Src.l8w8jwt_decode_raw [.ptr (some (P, 0)), optV O1, optV A1, optV L1, optV A2, optV L2, optV A3, optV L3] s st =
      .ok (.int rc, st) := by
  have he : decodeRaw env (some p) O1.isNone (rawArgs A1 L1 A2 L2 A3 L3) s st.heap = .ok ({ rc := rc }, st.heap) := by
    unfold decodeRaw
    rcases h with ⟨h, rfl⟩ | ⟨h1, h2, h3, h4, h⟩
    · have : (O1.isNone || (rawArgs A1 L1 A2 L2 A3 L3).bad) = true := by
        rcases h with rfl | h
        · rfl
        · rw [← rawArgs_bad, Bool.not_eq_false] at h
          simp [h]
      simp only []
      rw [if_pos this]
      rfl
    · have hv := (validate_refuses (Refuses.ne h)).mp h
      simp only []
      rw [if_neg (by rw [rawArgs_bad.mpr ⟨h2, h3, h4⟩]; simp [h1]), if_pos (by rw [hv]; exact Refuses.ne h), hv]
      rfl
  obtain ⟨m, e, w, D⟩ := decode_raw_text (d := d) c he
  rw [raw_nothing c.wf D fun b hb hx => by
    rcases List.mem_cons.mp hb with hb | hb
    · exact w b hb.symm
    · exact absurd hb hx] at e
  exact e

/-- **C91** The text of `l8w8jwt_decode_raw_no_validation`: if no segment is asked for, or one but not its length, it returns `L8W8JWT_NULL_ARG`; otherwise
it refuses parameters as `Refuses` says. Nothing has changed. -/
theorem C91_raw_nv_text {A1 L1 A2 L2 A3 L3 : Option Blk} (c : DecCall env fuel st P p [A1, L1, A2, L2, A3, L3]) {rc : Nat}
    (h : (((A1 = none ∧ A2 = none ∧ A3 = none) ∨ ¬ (Paired A1 L1 ∧ Paired A2 L2 ∧ Paired A3 L3)) ∧ rc = Code.nullArg) ∨
      (¬ (A1 = none ∧ A2 = none ∧ A3 = none) ∧ Paired A1 L1 ∧ Paired A2 L2 ∧ Paired A3 L3 ∧ Refuses env p rc)) :
    runFun (cx env fuel (d + 3)) Src.l8w8jwt_decode_raw_no_validation [.ptr (some (P, 0)), optV A1, optV L1, optV A2, optV L2, optV A3, optV L3] s st =
      .ok (.int rc, st) := by
  have all : ((rawArgs A1 L1 A2 L2 A3 L3).header && (rawArgs A1 L1 A2 L2 A3 L3).payload && (rawArgs A1 L1 A2 L2 A3 L3).signature) = true ↔
      A1 = none ∧ A2 = none ∧ A3 = none := by
    show (A1.isNone && A2.isNone && A3.isNone) = true ↔ _
    simp [and_assoc]
  have he : decodeRawNoValidation env (some p) (rawArgs A1 L1 A2 L2 A3 L3) s st.heap = .ok ({ rc := rc }, st.heap) := by
    unfold decodeRawNoValidation
    rcases h with ⟨h, rfl⟩ | ⟨h1, h2, h3, h4, h⟩
    · simp only []
      rw [if_pos]
      · rfl
      · rcases h with h | h
        · rw [all.mpr h]; rfl
        · rw [← rawArgs_bad, Bool.not_eq_false] at h
          rw [h, Bool.or_true]
    · have hv := (validate_refuses (Refuses.ne h)).mp h
      simp only []
      rw [if_neg (by rw [rawArgs_bad.mpr ⟨h2, h3, h4⟩, Bool.or_false, all]; exact h1), if_pos (by rw [hv]; exact Refuses.ne h), hv]
      rfl
  obtain ⟨m, e, D⟩ := decode_raw_nv_text (d := d) c he
  rw [raw_nothing c.wf D fun b hb hx => absurd hb hx] at e
  exact e

/-- Without parameters the three texts return `L8W8JWT_NULL_ARG`, and nothing has changed. -/
theorem C91_null_text (hw : Wf st) (hh : HeapWf st.heap) (hg : ∀ i, -2147483648 ≤ (env.garbage i).end_ ∧ (env.garbage i).end_ < 2147483648)
    {O1 A1 L1 A2 L2 A3 L3 : Option Blk} :
    (OutsAt st.mem [O1, A1, L1] → runFun (cx env fuel (d + 3)) Src.l8w8jwt_decode [.ptr none, optV O1, optV A1, optV L1] s st = .ok (.int Code.nullArg, st)) ∧
    (OutsAt st.mem [O1, A1, L1, A2, L2, A3, L3] → runFun (cx env fuel (d + 3)) Src.l8w8jwt_decode_raw
      [.ptr none, optV O1, optV A1, optV L1, optV A2, optV L2, optV A3, optV L3] s st = .ok (.int Code.nullArg, st)) ∧
    (OutsAt st.mem [A1, L1, A2, L2, A3, L3] → runFun (cx env fuel (d + 3)) Src.l8w8jwt_decode_raw_no_validation
      [.ptr none, optV A1, optV L1, optV A2, optV L2, optV A3, optV L3] s st = .ok (.int Code.nullArg, st)) := by
  refine ⟨fun hO => ?_, fun hO => ?_, fun hO => ?_⟩
  · obtain ⟨v, st', e, rfl, m, rfl, D⟩ := wp_decode env fuel d hg (s := s) hw hh (params := none) (pv := .ptr none) hO rfl (fun q m h => by cases h) rfl
    rw [decoded_nothing hw rfl D] at e
    exact e
  · obtain ⟨v, st', e, rfl, m, rfl, w, D⟩ := wp_decode_raw env fuel d hg (s := s) hw hh (params := none) (pv := .ptr none) hO rfl (fun q m h => by cases h) rfl
    rw [raw_nothing hw D fun b hb hx => by
      rcases List.mem_cons.mp hb with hb | hb
      · exact w b hb.symm
      · exact absurd hb hx] at e
    exact e
  · obtain ⟨v, st', e, rfl, m, rfl, D⟩ := wp_decode_nov env fuel d (s := s) hw hh (params := none) (pv := .ptr none) hO rfl (fun q m h => by cases h) rfl
    rw [raw_nothing hw D fun b hb hx => absurd hb hx] at e
    exact e

/-! ## Runs -/

/-- No key, a key of 8193 bytes, no out argument for the result, no parameters: executed as text, nothing is stored. -/
example : seen (decodeText { toyDec (str "a.b.c") with verificationKey := none }) = some ⟨.int 100, some [.undef], some [.undef], 0⟩ ∧
    seen (decodeText { toyDec (str "a.b.c") with verificationKeyLength := 8193 }) = some ⟨.int 200, some [.undef], some [.undef], 0⟩ ∧
    seen (runFun (cx toy 4000 3) Src.l8w8jwt_decode [exPtr 2 0, .ptr none, exPtr 4 0, exPtr 5 0] calm (askSt (toyDec (str "a.b.c")))) =
      some ⟨.int 100, some [.undef], some [.undef], 0⟩ ∧
    seen (runFun (cx toy 4000 3) Src.l8w8jwt_decode [.ptr none, exPtr 3 0, exPtr 4 0, exPtr 5 0] calm (askSt (toyDec (str "a.b.c")))) =
      some ⟨.int 100, some [.undef], some [.undef], 0⟩ := by
  decide +kernel

/-- With parameters that are not refused, the first thing that is stored is the result with all flags. -/
example : seen (decodeText (toyDec (str "a.b.c")) toy { calm with failAlloc := fun _ => true }) = failed L8W8JWT_OUT_OF_MEM 0 := by decide +kernel

/-- Which codes there are. -/
example : Refuses toy { toyDec (str "a.b.c") with verificationKey := none } 100 ∧ Refuses toy { toyDec (str "a.b.c") with verificationKeyLength := 8193 } 200 ∧
    ∀ n, ¬ Refuses toy (toyDec (str "a.b.c") 13) n := by
  refine ⟨.null (Or.inr rfl), .length (by decide) (by decide) (Or.inr (Or.inr (by decide))), fun n h => ?_⟩
  exact absurd ((validate_refuses (Refuses.ne h)).mp h) (Ne.symm (Refuses.ne h))

end C
end L8w8jwt
