import Verif.Proofs.DecodeMain
import Verif.Proofs.Toy
import Verif.Props.EncodeOom
/-!
# Properties of the decode functions: parameters, signatures, failing closed, raw decoding, memory
-/

namespace L8w8jwt
open Spec

variable {s : Sched} {h h' h1 h2 : Heap} {env : Env} {p : DecParams} {tok : Bytes} {r : DecOut} {v : VRes}

/-! ## C27 -/

/-- C27: what `l8w8jwt_validate_decoding_params` returns, exactly. -/
theorem C27_validate (q : Option DecParams) :
    (validateDecodingParams env q = L8W8JWT_NULL_ARG ↔ ∀ p, q = some p → p.jwt = none ∨ p.verificationKey = none) ∧
    (validateDecodingParams env q = L8W8JWT_INVALID_ARG ↔ ∃ p, q = some p ∧ p.jwt ≠ none ∧ p.verificationKey ≠ none ∧
      (p.jwtLength = 0 ∨ p.verificationKeyLength = 0 ∨ 8192 < p.verificationKeyLength)) ∧
    (validateDecodingParams env q = L8W8JWT_UNSUPPORTED_ALG ↔ ∃ p, q = some p ∧ p.jwt ≠ none ∧ p.verificationKey ≠ none ∧
      p.jwtLength ≠ 0 ∧ p.verificationKeyLength ≠ 0 ∧ p.verificationKeyLength ≤ 8192 ∧ p.alg = 13 ∧ env.eddsa = false) ∧
    (validateDecodingParams env q ≠ L8W8JWT_NULL_ARG → validateDecodingParams env q ≠ L8W8JWT_INVALID_ARG →
      validateDecodingParams env q ≠ L8W8JWT_UNSUPPORTED_ALG → validateDecodingParams env q = L8W8JWT_SUCCESS) := by
  cases q with
  | none => simp only [validateDecodingParams]; refine ⟨?_, ?_, ?_, ?_⟩ <;> simp [L8W8JWT_NULL_ARG, L8W8JWT_INVALID_ARG, L8W8JWT_UNSUPPORTED_ALG]
  | some p =>
    have hm : L8W8JWT_MAX_KEY_SIZE = 8192 := rfl
    have hn : L8W8JWT_NULL_ARG ≠ L8W8JWT_INVALID_ARG ∧ L8W8JWT_INVALID_ARG ≠ L8W8JWT_NULL_ARG ∧
      L8W8JWT_SUCCESS ≠ L8W8JWT_NULL_ARG ∧ L8W8JWT_SUCCESS ≠ L8W8JWT_INVALID_ARG ∧ L8W8JWT_UNSUPPORTED_ALG ≠ L8W8JWT_NULL_ARG ∧
      L8W8JWT_UNSUPPORTED_ALG ≠ L8W8JWT_INVALID_ARG ∧ L8W8JWT_NULL_ARG ≠ L8W8JWT_UNSUPPORTED_ALG ∧
      L8W8JWT_INVALID_ARG ≠ L8W8JWT_UNSUPPORTED_ALG ∧ L8W8JWT_SUCCESS ≠ L8W8JWT_UNSUPPORTED_ALG := by decide
    have ha : L8W8JWT_ALG_ED25519 = 13 := rfl
    simp only [validateDecodingParams, hm, ha]
    cases h1 : p.jwt <;> cases h2 : p.verificationKey <;> simp [h1, h2, hn]
    by_cases h6 : p.verificationKeyLength = 0 <;> by_cases h7 : 8192 < p.verificationKeyLength <;>
      by_cases h8 : p.jwtLength = 0 <;> cases h9 : env.eddsa <;> by_cases h10 : p.alg = 13 <;>
      simp [h6, h7, h8, h10, hn] <;> omega

/-- C27: all three functions return that code unchanged (if the out pointers are usable), write nothing and allocate nothing. -/
theorem C27_decode_invalid (q : Option DecParams) (hv : validateDecodingParams env q ≠ L8W8JWT_SUCCESS) :
    decode env q false false false s h = .ok ({ rc := validateDecodingParams env q }, h) ∧
    decode env q false true true s h = .ok ({ rc := validateDecodingParams env q }, h) ∧
    decodeRaw env q false {} s h = .ok ({ rc := validateDecodingParams env q }, h) ∧
    decodeRawNoValidation env q {} s h = .ok ({ rc := validateDecodingParams env q }, h) := by
  cases q with
  | none => exact ⟨rfl, rfl, rfl, rfl⟩
  | some p =>
    refine ⟨?_, ?_, ?_, ?_⟩ <;>
      simp only [decode, decodeRaw, decodeRawNoValidation, RawArgs.bad, Bool.not_false, Bool.not_true, Bool.true_and, Bool.false_and,
        Bool.or_self, Bool.and_false, Bool.false_eq_true, if_false, hv, ne_eq, not_false_eq_true, if_true] <;> rfl

/-- C27: NULL parameters or unusable out pointers are reported without doing anything. -/
theorem C27_null_args (q : Option DecParams) (hq : q = none ∨ validateDecodingParams env q = L8W8JWT_SUCCESS) (a b c : Bool)
    (hbad : q = none ∨ a = true ∨ (b = false ∧ c = true)) : decode env q a b c s h = .ok ({ rc := L8W8JWT_NULL_ARG }, h) := by
  cases q with
  | none => rfl
  | some p =>
    have hv := hq.resolve_left (by simp)
    rcases hbad with hb | rfl | ⟨rfl, rfl⟩
    · cases hb
    · unfold decode; simp only [hv, ne_eq, not_true_eq_false, if_false, if_true]; split <;> rfl
    · rfl

/-! ## Structure of the functions -/

theorem wp_trivial {α : Type} (m : M α) : wp m s h (fun _ _ => True) (fun _ => True) := by
  unfold wp; split <;> trivial

/-- Every way in which `l8w8jwt_decode` returns. -/
theorem decode_returns {q : Option DecParams} {a b c : Bool} (he : decode env q a b c s h = .ok (r, h')) :
    (r = { rc := r.rc } ∧ r.rc ≠ L8W8JWT_SUCCESS ∧ h' = h ∧
      (validateDecodingParams env q ≠ L8W8JWT_SUCCESS ∨ a = true ∨ (b = false ∧ c = true))) ∨
    (∃ p st h1, q = some p ∧ a = false ∧ (b = true ∨ c = false) ∧ validateDecodingParams env q = L8W8JWT_SUCCESS ∧
      decodeBody env p s h = .ok (st, h1) ∧ r = decOut b st) := by
  cases q with
  | none => cases he; exact Or.inl ⟨rfl, by decide, rfl, Or.inl (by rw [show validateDecodingParams env none = L8W8JWT_NULL_ARG from rfl]; decide)⟩
  | some p =>
    unfold decode at he
    simp only at he
    by_cases h1 : (!b && c) = true
    · rw [if_pos h1] at he; cases he; exact Or.inl ⟨rfl, by decide, rfl, by simpa using Or.inr (Or.inr h1)⟩
    rw [if_neg h1] at he
    by_cases hv : validateDecodingParams env (some p) ≠ L8W8JWT_SUCCESS
    · rw [if_pos hv] at he; cases he; exact Or.inl ⟨rfl, hv, rfl, Or.inl hv⟩
    rw [if_neg hv] at he
    cases a with
    | true => simp only [if_true] at he; cases he; exact Or.inl ⟨rfl, by decide, rfl, Or.inr (Or.inl rfl)⟩
    | false =>
      simp only [Bool.false_eq_true, if_false] at he
      rw [run_bind] at he
      cases hb : decodeBody env p s h with
      | error e => rw [hb] at he; cases he
      | ok x =>
        obtain ⟨st, h2⟩ := x
        refine Or.inr ⟨p, st, h2, rfl, rfl, ?_, by simpa using hv, hb, ?_⟩
        · cases b <;> cases c <;> simp_all
        · rw [hb] at he
          simp only at he
          have : wp (do
              free st.segs.header
              free st.segs.payload
              free st.segs.signature
              if b || decide (st.rc ≠ L8W8JWT_SUCCESS) then do
                freeClaims st.claims st.claims.items.length
                pure ({ rc := st.rc, validation := some st.validation } : DecOut)
              else pure { rc := st.rc, validation := some st.validation, claims := some st.claims,
                          claimsLength := some st.claims.items.length }) s h2 (fun r _ => r = decOut b st) (fun _ => True) := by
            simp only [wp_bind]
            refine wp_mono (wp_trivial _) (fun _ _ _ => ?_) (fun _ h => h)
            refine wp_mono (wp_trivial _) (fun _ _ _ => ?_) (fun _ h => h)
            refine wp_mono (wp_trivial _) (fun _ _ _ => ?_) (fun _ h => h)
            unfold decOut
            by_cases hk : (b || decide (st.rc ≠ L8W8JWT_SUCCESS)) = true
            · rw [if_pos hk, if_pos hk, wp_bind]
              exact wp_mono (wp_trivial _) (fun _ _ _ => rfl) (fun _ h => h)
            · rw [if_neg hk, if_neg hk]; exact rfl
          exact wp_iff_forall.mp this _ _ he

/-- Every way in which `l8w8jwt_decode_raw` returns. -/
theorem decodeRaw_returns {q : Option DecParams} {a : Bool} {x : RawArgs} {r : RawOut} (he : decodeRaw env q a x s h = .ok (r, h')) :
    (r = { rc := r.rc } ∧ r.rc ≠ L8W8JWT_SUCCESS ∧ h' = h ∧
      (validateDecodingParams env q ≠ L8W8JWT_SUCCESS ∨ a = true ∨ x.bad = true)) ∨
    (∃ p st h1, q = some p ∧ a = false ∧ x.bad = false ∧ validateDecodingParams env q = L8W8JWT_SUCCESS ∧
      decodeBody env p s h = .ok (st, h1) ∧ r = rawOut x st) := by
  cases q with
  | none => cases he; exact Or.inl ⟨rfl, by decide, rfl, Or.inl (by rw [show validateDecodingParams env none = L8W8JWT_NULL_ARG from rfl]; decide)⟩
  | some p =>
    unfold decodeRaw at he
    simp only at he
    by_cases h1 : (a || x.bad) = true
    · rw [if_pos h1] at he; cases he; exact Or.inl ⟨rfl, by decide, rfl, by simpa using Or.inr h1⟩
    rw [if_neg h1] at he
    by_cases hv : validateDecodingParams env (some p) ≠ L8W8JWT_SUCCESS
    · rw [if_pos hv] at he; cases he; exact Or.inl ⟨rfl, hv, rfl, Or.inl hv⟩
    rw [if_neg hv, run_bind, decodeRawBody_eq] at he
    cases hb : decodeBody env p s h with
    | error e => rw [hb] at he; cases he
    | ok y =>
      obtain ⟨st, h2⟩ := y
      rw [hb] at he
      refine Or.inr ⟨p, st, h2, rfl, ?_, ?_, by simpa using hv, hb, ?_⟩
      · cases a <;> simp_all
      · simp at h1; exact h1.2
      · have hg : ∀ (b : Bool) (q : Ptr) (n : Nat) (hh : Heap), wp (giveOrFree b q n) s hh (fun o _ => o = given b q n) (fun _ => True) := by
          intro b q n hh
          unfold giveOrFree given
          cases b with
          | true => simp only [if_true, wp_bind]; exact wp_mono (wp_trivial _) (fun _ _ _ => rfl) (fun _ h => h)
          | false => exact rfl
        have : wp (do
            let hh ← giveOrFree x.header st.segs.header st.segs.headerLength
            let b ← giveOrFree x.payload st.segs.payload st.segs.payloadLength
            let sg ← giveOrFree x.signature st.segs.signature st.segs.signatureLength
            freeClaims st.claims st.claims.items.length
            pure { rc := st.rc, validation := some st.validation, header := hh, payload := b, signature := sg }) s h2
            (fun r _ => r = rawOut x st) (fun _ => True) := by
          simp only [wp_bind]
          refine wp_mono (hg _ _ _ _) (fun _ _ e1 => ?_) (fun _ h => h)
          refine wp_mono (hg _ _ _ _) (fun _ _ e2 => ?_) (fun _ h => h)
          refine wp_mono (hg _ _ _ _) (fun _ _ e3 => ?_) (fun _ h => h)
          refine wp_mono (wp_trivial _) (fun _ _ _ => ?_) (fun _ h => h)
          subst e1 e2 e3
          exact rfl
        exact wp_iff_forall.mp this _ _ he

/-! ## C32 -/

theorem body_closed {st : DecState} (he : decodeBody env p s h = .ok (st, h1)) (hr : st.rc ≠ L8W8JWT_SUCCESS) :
    st.validation = ~~~0 := by
  have : wp (decodeBody env p) s h (fun st _ => st.rc ≠ L8W8JWT_SUCCESS → st.validation = ~~~0) (fun _ => True) := by
    unfold decodeBody
    rw [wp_bind]
    refine wp_mono (wp_trivial _) (fun blk _ _ => ?_) (fun _ h => h)
    cases blk with
    | none => exact fun _ => rfl
    | some b =>
      simp only
      rw [wp_bind]
      refine wp_mono (wp_trivial _) (fun sg _ _ => ?_) (fun _ h => h)
      by_cases hrc : sg.rc ≠ L8W8JWT_SUCCESS
      · rw [if_pos hrc]; exact fun _ => rfl
      rw [if_neg hrc, wp_bind]
      refine wp_mono (wp_trivial _) (fun x _ _ => ?_) (fun _ h => h)
      obtain ⟨rc, v⟩ := x
      simp only
      by_cases hrc : rc ≠ L8W8JWT_SUCCESS
      · rw [if_pos hrc]; exact fun _ => rfl
      rw [if_neg hrc, wp_bind]
      refine wp_mono (wp_trivial _) (fun x _ _ => ?_) (fun _ h => h)
      obtain ⟨rc, cs⟩ := x
      simp only
      by_cases hrc : rc ≠ L8W8JWT_SUCCESS
      · rw [if_pos hrc]; exact fun _ => rfl
      rw [if_neg hrc, wp_bind]
      refine wp_mono (wp_trivial _) (fun x _ _ => ?_) (fun _ h => h)
      obtain ⟨rc, cs⟩ := x
      simp only
      by_cases hrc : rc ≠ L8W8JWT_SUCCESS
      · rw [if_pos hrc]; exact fun _ => rfl
      rw [if_neg hrc, wp_bind]
      refine wp_mono (wp_trivial _) (fun x _ _ => ?_) (fun _ h => h)
      exact fun hx => absurd rfl hx
  exact wp_iff_forall.mp this _ _ he hr

/-- C32: whatever the parameters, the token and the allocation failures: if `l8w8jwt_decode` returns an error, no claims are
written, and the validation result is either not written (parameter errors) or has every bit set. -/
theorem C32_fail_closed {q : Option DecParams} {a b c : Bool} (he : decode env q a b c s h = .ok (r, h'))
    (hr : r.rc ≠ L8W8JWT_SUCCESS) :
    r.claims = none ∧ r.claimsLength = none ∧
      (r.validation = some 0xffffffff#32 ∨
       (r.validation = none ∧ h' = h ∧ (validateDecodingParams env q ≠ L8W8JWT_SUCCESS ∨ a = true ∨ (b = false ∧ c = true)))) := by
  rcases decode_returns he with ⟨h1, h2, h3, h4⟩ | ⟨p, st, h1, rfl, rfl, hbc, hv, hb, rfl⟩
  · rw [h1]
    exact ⟨rfl, rfl, Or.inr ⟨rfl, h3, h4⟩⟩
  · have hst : st.rc ≠ L8W8JWT_SUCCESS := by
      unfold decOut at hr
      split at hr <;> exact hr
    have hk : (b || decide (st.rc ≠ L8W8JWT_SUCCESS)) = true := by simp [hst]
    have hd : decOut b st = { rc := st.rc, validation := some st.validation } := by unfold decOut; rw [if_pos hk]
    rw [hd, body_closed hb hst]
    exact ⟨rfl, rfl, Or.inl rfl⟩

/-- C32 for `l8w8jwt_decode_raw`. -/
theorem C32_raw_fail_closed {q : Option DecParams} {a : Bool} {x : RawArgs} {r : RawOut} (he : decodeRaw env q a x s h = .ok (r, h'))
    (hr : r.rc ≠ L8W8JWT_SUCCESS) : r.validation = some 0xffffffff#32 ∨ (r = { rc := r.rc } ∧ h' = h) := by
  rcases decodeRaw_returns he with ⟨h1, h2, h3, -⟩ | ⟨p, st, h1, rfl, rfl, hbc, hv, hb, rfl⟩
  · exact Or.inr ⟨h1, h3⟩
  · left
    show some st.validation = _
    rw [body_closed hb hr]
    rfl

/-! ## Bits of the validation result -/

theorem flag_step {r : Res VRes} {flag v v' : VRes} (hf : flag &&& 128 = 0)
    (hr : ∀ x, r = .ok x → x = v ∨ x = v ||| flag) (he : r = .ok v') : v' &&& 128 = v &&& 128 := by
  rcases hr _ he with rfl | rfl
  · rfl
  · have : (v ||| flag) &&& 128 = (v &&& 128) ||| (flag &&& 128) := by
      ext i hi; simp only [BitVec.getElem_and, BitVec.getElem_or]
      cases v[i] <;> cases flag[i] <;> cases (128#32)[i] <;> rfl
    rw [this, hf]; exact BitVec.or_zero

theorem checkStr_out {cs : List Claim} {k : String} {e : Option Bytes} {n : Nat} {flag v x : VRes} (he : checkStr cs k e n flag v = .ok x) :
    x = v ∨ x = v ||| flag := by
  unfold checkStr at he
  cases e with
  | none => cases he; exact Or.inl rfl
  | some e =>
    simp only [bind, Except.bind] at he
    split at he
    · cases he
    split at he
    · cases he
    split at he
    · cases he; exact Or.inr rfl
    split at he
    · cases he; exact Or.inr rfl
    split at he
    · cases he
    split at he
    · cases he
    cases he
    split
    · exact Or.inr rfl
    · exact Or.inl rfl

theorem checkTime_out {ct : Int} {cs : List Claim} {k : String} {en : Bool} {tol : UInt8} {late : Bool} {flag v x : VRes}
    (he : checkTime ct cs k en tol late flag v = .ok x) : x = v ∨ x = v ||| flag := by
  unfold checkTime at he
  cases en with
  | false => cases he; exact Or.inl rfl
  | true =>
    simp only [Bool.not_true, Bool.false_eq_true, if_false, bind, Except.bind] at he
    split at he
    · cases he
    split at he
    · cases he; exact Or.inr rfl
    split at he
    · cases he
    split at he
    · cases he
    split at he
    · cases he
    split at he <;> split at he <;> cases he <;> simp

theorem checkTyp_out {cs : List Claim} {e : Option Bytes} {n : Nat} {v x : VRes} (he : checkTyp env cs e n v = .ok x) :
    x = v ∨ x = v ||| L8W8JWT_TYP_FAILURE := by
  unfold checkTyp at he
  cases e with
  | none => cases he; exact Or.inl rfl
  | some e =>
    simp only [bind, Except.bind] at he
    split at he
    · cases he
    split at he
    · cases he; exact Or.inr rfl
    split at he
    · cases he
    cases he
    split
    · exact Or.inr rfl
    · exact Or.inl rfl

/-- Claim validation does not touch the signature flag. -/
theorem validateClaims_sig {cs : List Claim} {v x : VRes} (he : validateClaims env p cs v = .ok x) : x &&& 128 = v &&& 128 := by
  unfold validateClaims at he
  simp only [bind, Except.bind] at he
  split at he
  · cases he
  rename_i v1 e1
  split at he
  · cases he
  rename_i v2 e2
  split at he
  · cases he
  rename_i v3 e3
  split at he
  · cases he
  rename_i v4 e4
  split at he
  · cases he
  rename_i v5 e5
  split at he
  · cases he
  rename_i v6 e6
  split at he
  · cases he
  rename_i v7 e7
  rw [flag_step (by decide) (fun _ h => checkTyp_out h) he, flag_step (by decide) (fun _ h => checkTime_out h) e7,
    flag_step (by decide) (fun _ h => checkTime_out h) e6, flag_step (by decide) (fun _ h => checkTime_out h) e5,
    flag_step (by decide) (fun _ h => checkStr_out h) e4, flag_step (by decide) (fun _ h => checkStr_out h) e3,
    flag_step (by decide) (fun _ h => checkStr_out h) e2, flag_step (by decide) (fun _ h => checkStr_out h) e1]

/-- The validation result reports a failed signature check. -/
def SigFailed (v : VRes) : Prop := v &&& L8W8JWT_SIGNATURE_VERIFICATION_FAILURE ≠ 0

theorem outcome_of (hc : CryptoOk env.crypto) (hv : validateDecodingParams env (some p) = L8W8JWT_SUCCESS) (ht : TokenMem p tok)
    {st : DecState} (he : decodeBody env p s h = .ok (st, h1)) : Outcome env s p tok st :=
  (wp_iff_forall.mp (wp_decodeBody (s := s) (h := h) hc hv ht (fun _ => True) (Or.inr fun _ => trivial)) _ _ he).out

/-- The signature step of a successful run. -/
theorem outcome_sig {st : DecState} (ho : Outcome env s p tok st) (hr : st.rc = L8W8JWT_SUCCESS) :
    ∃ vr, Sig env p tok (.ok vr) ∧ (vr = true ↔ ¬ SigFailed st.validation) := by
  cases ho with
  | oom => exact absurd hr (by decide)
  | segs _ hn => exact absurd hr hn
  | verify _ _ hs =>
    rcases hs with ⟨_, hx⟩ | ⟨_, _, _, _, _, _, _, hp⟩
    · cases hx
    · exact absurd hr (verFails_codes hp).1
  | claims => exact absurd (show L8W8JWT_DECODE_FAILED_INVALID_TOKEN_FORMAT = L8W8JWT_SUCCESS from hr) (by decide)
  | @done sg blk cs a b vr v ds1 ds2 _ _ hs _ _ _ hval =>
    refine ⟨vr, hs, ?_⟩
    have := validateClaims_sig hval
    unfold SigFailed
    show _ ↔ ¬ (v &&& 128 ≠ 0)
    rw [this]
    cases vr <;> decide

/-! ## C28 -/

/-- The token has a third part, and it is a signature of the text before the second dot that the algorithm and the key chosen
by the caller accept. -/
def SignatureOk (env : Env) (p : DecParams) (tok : Bytes) : Prop :=
  ∃ a b c, ThreeParts tok a b c ∧ Verifies env p.alg (verKey p) (a ++ 46 :: b) c

theorem alg_some (h0 : 0 ≤ p.alg) (h1 : p.alg ≤ 13) : (alg? p.alg).isSome := by
  have : p.alg = 0 ∨ p.alg = 1 ∨ p.alg = 2 ∨ p.alg = 3 ∨ p.alg = 4 ∨ p.alg = 5 ∨ p.alg = 6 ∨ p.alg = 7 ∨ p.alg = 8 ∨ p.alg = 9 ∨
    p.alg = 10 ∨ p.alg = 11 ∨ p.alg = 12 ∨ p.alg = 13 := by omega
  rcases this with h | h | h | h | h | h | h | h | h | h | h | h | h | h <;> rw [h] <;> rfl

theorem body_verified {st : DecState} (hc : CryptoOk env.crypto) (hv : validateDecodingParams env (some p) = L8W8JWT_SUCCESS)
    (ht : TokenMem p tok) (h0 : 0 ≤ p.alg) (h13 : p.alg ≤ 13) (he : decodeBody env p s h = .ok (st, h1))
    (hr : st.rc = L8W8JWT_SUCCESS) :
    (¬ SigFailed st.validation → SignatureOk env p tok) ∧
    (SignatureOk env p tok → ¬ SigFailed st.validation) := by
  obtain ⟨vr, hs, hi⟩ := outcome_sig (outcome_of hc hv ht he) hr
  have hal := alg_some h0 h13
  rcases hs with ⟨hx, -⟩ | ⟨-, a, b, c, d, h3, hd, hp⟩
  · omega
  refine ⟨fun hn => ?_, fun hok => ?_⟩
  · have := hi.mpr hn; subst this
    exact ⟨a, b, c, h3, hp.2 hal⟩
  · refine hi.mp ?_
    cases vr with
    | true => rfl
    | false =>
      obtain ⟨a', b', c', h3', hver⟩ := hok
      obtain ⟨rfl, rfl, rfl⟩ := three_unique h3 h3'
      exact absurd hver hp.2.2

/-- C28 (partial: for the algorithm ids 0..13; the full statement has no such condition and is false, see
`C28_verified_false`): if `l8w8jwt_decode` returns success and the validation result does not report a failed signature, the
signature of the token verifies. For every token, key, parameters, environment and schedule of allocation failures. -/
theorem C28_verified_partial (hc : CryptoOk env.crypto) (ht : TokenMem p tok) (h0 : 0 ≤ p.alg) (h13 : p.alg ≤ 13) {a b c : Bool}
    (he : decode env (some p) a b c s h = .ok (r, h')) (hr : r.rc = L8W8JWT_SUCCESS) (hv : r.validation = some v)
    (hn : ¬ SigFailed v) : SignatureOk env p tok := by
  rcases decode_returns he with ⟨h1, h2, -⟩ | ⟨p', st, h1, hp, rfl, hbc, hval, hb, rfl⟩
  · exact absurd hr h2
  · cases hp
    have e1 : st.rc = L8W8JWT_SUCCESS := by unfold decOut at hr; split at hr <;> exact hr
    have e2 : st.validation = v := by unfold decOut at hv; split at hv <;> exact Option.some.inj hv
    subst e2
    exact (body_verified hc hval ht h0 h13 hb e1).1 hn

/-- C28 for `l8w8jwt_decode_raw`. -/
theorem C28_raw_verified_partial (hc : CryptoOk env.crypto) (ht : TokenMem p tok) (h0 : 0 ≤ p.alg) (h13 : p.alg ≤ 13) {a : Bool}
    {x : RawArgs} {r : RawOut} (he : decodeRaw env (some p) a x s h = .ok (r, h')) (hr : r.rc = L8W8JWT_SUCCESS)
    (hv : r.validation = some v) (hn : ¬ SigFailed v) : SignatureOk env p tok := by
  rcases decodeRaw_returns he with ⟨h1, h2, -⟩ | ⟨p', st, h1, hp, rfl, hbc, hval, hb, rfl⟩
  · exact absurd hr h2
  · cases hp
    have e2 : st.validation = v := Option.some.inj hv
    subst e2
    exact (body_verified hc hval ht h0 h13 hb hr).1 hn

/-- C28, converse: a token whose signature verifies is not reported as having a bad signature. -/
theorem C28_verified_conv (hc : CryptoOk env.crypto) (ht : TokenMem p tok) (h0 : 0 ≤ p.alg) (h13 : p.alg ≤ 13) {a b c : Bool}
    (hs : SignatureOk env p tok) (he : decode env (some p) a b c s h = .ok (r, h')) (hr : r.rc = L8W8JWT_SUCCESS) (hv : r.validation = some v) : ¬ SigFailed v := by
  rcases decode_returns he with ⟨h1, h2, -⟩ | ⟨p', st, h1, hp, rfl, hbc, hval, hb, rfl⟩
  · exact absurd hr h2
  · cases hp
    have e1 : st.rc = L8W8JWT_SUCCESS := by unfold decOut at hr; split at hr <;> exact hr
    have e2 : st.validation = v := by unfold decOut at hv; split at hv <;> exact Option.some.inj hv
    subst e2
    exact (body_verified hc hval ht h0 h13 hb e1).2 hs

/-! ### A concrete token -/

/-- A token with the given header, payload and signature. -/
def mkTok (hdr pay : String) (sig : Bytes) : Bytes := b64 true (str hdr) ++ 46 :: (b64 true (str pay) ++ 46 :: b64 true sig)

/-- Parameters for decoding a token with HS256 and a short key. -/
def toyDec (tok : Bytes) (alg : Int := 0) : DecParams :=
  { jwt := some (tok ++ [0]), jwtLength := tok.length, alg := alg, verificationKey := some (str "secret"), verificationKeyLength := 6 }

/-- The toy MAC of a header and payload. -/
def toyMac (hdr pay : String) : Bytes := toySum 32 (str "secret" ++ 1 :: (b64 true (str hdr) ++ 46 :: b64 true (str pay)))

/-- Return code and validation result of decoding without allocation failures. -/
def verdict (p : DecParams) : Option (Nat × Option VRes) :=
  match decode toy (some p) false false false calm heap0 with
  | .ok (r, _) => some (r.rc, r.validation)
  | .error _ => none

theorem verdict_run {p : DecParams} {rc : Nat} {v : Option VRes} (hv : verdict p = some (rc, v)) :
    ∃ r h', decode toy (some p) false false false calm heap0 = .ok (r, h') ∧ r.rc = rc ∧ r.validation = v := by
  unfold verdict at hv
  split at hv
  · rename_i r h' e
    cases hv
    exact ⟨r, h', e, rfl, rfl⟩
  · cases hv

/-- A header and payload. -/
def hdr1 : String := "{\"alg\":\"HS256\"}"
def pay1 : String := "{\"sub\":\"a\"}"

theorem toyDec_mem (tok : Bytes) (alg : Int) (h0 : (0 : UInt8) ∉ tok) (hl : tok.length < 2 ^ 63) :
    TokenMem (toyDec tok alg) tok := ⟨⟨[], rfl⟩, h0, Or.inl rfl, hl⟩

/-- The good token is accepted, a token with a changed payload is flagged. -/
example : verdict (toyDec (mkTok hdr1 pay1 (toyMac hdr1 pay1))) = some (0, some 0) ∧
    verdict (toyDec (mkTok hdr1 "{\"sub\":\"b\"}" (toyMac hdr1 pay1))) = some (0, some 128) := by decide +kernel

/-- C28 is false for other algorithm ids: with the id that `l8w8jwt_decoding_params_init` sets (-2), a token with an arbitrary
signature is accepted with validation result VALID. -/
theorem C28_verified_false : ∃ p tok r h', p.alg = decodingParamsInit.alg ∧ p.alg ≠ -1 ∧ TokenMem p tok ∧
    decode toy (some p) false false false calm heap0 = .ok (r, h') ∧ r.rc = L8W8JWT_SUCCESS ∧ r.validation = some L8W8JWT_VALID ∧
    ¬ SignatureOk toy p tok := by
  obtain ⟨r, h', e1, e2, e3⟩ := verdict_run (p := toyDec (mkTok hdr1 pay1 (str "xyz")) (-2)) (rc := 0) (v := some 0)
    (by decide +kernel)
  refine ⟨toyDec (mkTok hdr1 pay1 (str "xyz")) (-2), mkTok hdr1 pay1 (str "xyz"), r, h', rfl, by decide, toyDec_mem _ _ (by decide +kernel) (by decide +kernel), e1, e2, e3, ?_⟩
  rintro ⟨a, b, c, -, -, d, -, hx⟩
  exact hx

/-- More generally: for every algorithm id outside 0..13, whatever the token and key, a successful decode never reports a failed
signature. -/
theorem C28_unknown_alg_accepts (hc : CryptoOk env.crypto) (ht : TokenMem p tok) (ha : p.alg < 0 ∨ 13 < p.alg) {a b c : Bool}
    (he : decode env (some p) a b c s h = .ok (r, h')) (hr : r.rc = L8W8JWT_SUCCESS) (hv : r.validation = some v) : ¬ SigFailed v := by
  rcases decode_returns he with ⟨h1, h2, -⟩ | ⟨p', st, h1, hp, rfl, hbc, hval, hb, rfl⟩
  · exact absurd hr h2
  · cases hp
    have e1 : st.rc = L8W8JWT_SUCCESS := by unfold decOut at hr; split at hr <;> exact hr
    have e2 : st.validation = v := by unfold decOut at hv; split at hv <;> exact Option.some.inj hv
    subst e2
    obtain ⟨vr, hs, hi⟩ := outcome_sig (outcome_of hc hval ht hb) e1
    refine hi.mp ?_
    rcases hs with ⟨-, hx⟩ | ⟨-, a, b, c, d, h3, hd, hp⟩
    · cases hx; rfl
    · cases vr with
      | true => rfl
      | false =>
        have hn : alg? p.alg = none := by
          unfold alg?
          split
          · rfl
          · exact List.getElem?_eq_none (by simp [algs]; omega)
        have := hp.2.1
        rw [hn] at this; cases this

/-! ## C29 -/

theorem view_take {c d : Bytes} {n : Nat} (hd : b64Decode true c = some d) (hn : n ≤ d.length) : view c n = d.take n := by
  unfold view
  rw [hd, Option.getD_some, List.append_assoc, List.take_append_of_le_length hn]

/-- C29 (partial: for signatures of at least the length of the MAC, and up to that length; the full statement compares all
signature bytes, and is false, see `C29_hmac_false`): a token is accepted exactly if its signature starts with the MAC of the
signing input. -/
theorem C29_hmac_partial (hc : CryptoOk env.crypto) (ht : TokenMem p tok) (name : String) (md : Md)
    (ha : alg? p.alg = some (name, .hmac md)) {a b c d : Bytes} (h3 : ThreeParts tok a b c) (hd : b64Decode true c = some d)
    (hl : md.len ≤ d.length) (hk : CertOk env.crypto (verKey p)) {x y z : Bool}
    (he : decode env (some p) x y z s h = .ok (r, h')) (hr : r.rc = L8W8JWT_SUCCESS) (hv : r.validation = some v) :
    ¬ SigFailed v ↔ env.crypto.hmac md (hmacKey (verKey p)) (a ++ 46 :: b) = some (d.take md.len) := by
  have hr' : 0 ≤ p.alg ∧ p.alg ≤ 13 := by
    unfold alg? at ha
    split at ha
    · cases ha
    · have := (List.getElem?_eq_some_iff.mp ha).1
      simp [algs] at this
      omega
  have key : ∀ a' b' c', ThreeParts tok a' b' c' → (Verifies env p.alg (verKey p) (a' ++ 46 :: b') c' ↔
      env.crypto.hmac md (hmacKey (verKey p)) (a ++ 46 :: b) = some (d.take md.len)) := by
    intro a' b' c' h3'
    obtain ⟨rfl, rfl, rfl⟩ := three_unique h3 h3'
    unfold Verifies
    simp only [ha]
    rw [view_take hd hl]
    exact ⟨fun ⟨_, _, _, hx⟩ => hx, fun hx => ⟨hk, d, hd, hx⟩⟩
  constructor
  · intro hn
    obtain ⟨a', b', c', h3', hver⟩ := C28_verified_partial hc ht hr'.1 hr'.2 he hr hv hn
    exact (key a' b' c' h3').mp hver
  · intro hx
    exact C28_verified_conv hc ht hr'.1 hr'.2 ⟨a, b, c, h3, (key a b c h3).mpr hx⟩ he hr hv

/-- C29: for a signature of exactly the length of the MAC this is equality with the MAC. -/
theorem C29_hmac_exact_length (hc : CryptoOk env.crypto) (ht : TokenMem p tok) (name : String) (md : Md)
    (ha : alg? p.alg = some (name, .hmac md)) {a b c d : Bytes} (h3 : ThreeParts tok a b c) (hd : b64Decode true c = some d)
    (hl : d.length = md.len) (hk : CertOk env.crypto (verKey p)) {x y z : Bool}
    (he : decode env (some p) x y z s h = .ok (r, h')) (hr : r.rc = L8W8JWT_SUCCESS) (hv : r.validation = some v) :
    ¬ SigFailed v ↔ env.crypto.hmac md (hmacKey (verKey p)) (a ++ 46 :: b) = some d := by
  rw [C29_hmac_partial hc ht name md ha h3 hd (by omega) hk he hr hv, ← hl, List.take_length]

/-- C29 is false of the code: two different signatures are accepted for the same signing input (bytes after the MAC are
ignored). -/
theorem C29_hmac_false : ∃ sig sig' : Bytes, sig ≠ sig' ∧
    verdict (toyDec (mkTok hdr1 pay1 sig)) = some (L8W8JWT_SUCCESS, some L8W8JWT_VALID) ∧
    verdict (toyDec (mkTok hdr1 pay1 sig')) = some (L8W8JWT_SUCCESS, some L8W8JWT_VALID) :=
  ⟨toyMac hdr1 pay1, toyMac hdr1 pay1 ++ str "junk", by decide +kernel, by decide +kernel, by decide +kernel⟩

/-! ## C30 -/

/-- C30: whether a token is reported as having a bad signature depends on its header and payload only through the answer of the
verification the caller selected (`alg`, key) on the signing input as a string of bytes: two tokens, with whatever header
members, for which these answers agree are treated alike. -/
theorem C30_alg_from_caller (hc : CryptoOk env.crypto) {p' : DecParams} {tok' : Bytes} (ht : TokenMem p tok) (ht' : TokenMem p' tok')
    (h0 : 0 ≤ p.alg) (h13 : p.alg ≤ 13) (ha : p'.alg = p.alg) (hk : verKey p' = verKey p)
    {a b c a' b' c' : Bytes} (h3 : ThreeParts tok a b c) (h3' : ThreeParts tok' a' b' c')
    (hsame : Verifies env p.alg (verKey p) (a ++ 46 :: b) c ↔ Verifies env p.alg (verKey p) (a' ++ 46 :: b') c')
    {x y z x' y' z' : Bool} {s' : Sched} {g g' : Heap} {r' : DecOut} {v' : VRes}
    (he : decode env (some p) x y z s h = .ok (r, h')) (hr : r.rc = L8W8JWT_SUCCESS) (hv : r.validation = some v)
    (he' : decode env (some p') x' y' z' s' g = .ok (r', g')) (hr' : r'.rc = L8W8JWT_SUCCESS) (hv' : r'.validation = some v') :
    SigFailed v ↔ SigFailed v' := by
  have i1 : ¬ SigFailed v ↔ Verifies env p.alg (verKey p) (a ++ 46 :: b) c := by
    constructor
    · intro hn
      obtain ⟨a1, b1, c1, h31, hver⟩ := C28_verified_partial hc ht h0 h13 he hr hv hn
      obtain ⟨rfl, rfl, rfl⟩ := three_unique h3 h31
      exact hver
    · exact fun hver => C28_verified_conv hc ht h0 h13 ⟨a, b, c, h3, hver⟩ he hr hv
  have i2 : ¬ SigFailed v' ↔ Verifies env p.alg (verKey p) (a' ++ 46 :: b') c' := by
    rw [← hk, ← ha]
    rw [← ha] at h0 h13
    constructor
    · intro hn
      obtain ⟨a1, b1, c1, h31, hver⟩ := C28_verified_partial hc ht' h0 h13 he' hr' hv' hn
      obtain ⟨rfl, rfl, rfl⟩ := three_unique h3' h31
      exact hver
    · exact fun hver => C28_verified_conv hc ht' h0 h13 ⟨a', b', c', h3', hver⟩ he' hr' hv'
  have hd : Decidable (SigFailed v) := by unfold SigFailed; infer_instance
  have hd' : Decidable (SigFailed v') := by unfold SigFailed; infer_instance
  exact Decidable.not_iff_not.mp (i1.trans (hsame.trans i2.symm))

/-- A header that names another algorithm (or none) changes nothing: with the MAC the caller asked for it is accepted, without it
is not. -/
example : (let h := "{\"alg\":\"none\"}"; verdict (toyDec (mkTok h pay1 (toyMac h pay1))) = some (0, some 0) ∧
    verdict (toyDec (mkTok h pay1 (toyMac hdr1 pay1))) = some (0, some 128)) ∧
    (let h := "{\"alg\":\"RS256\"}"; verdict (toyDec (mkTok h pay1 (toyMac h pay1))) = some (0, some 0)) := by decide +kernel

/-! ## C31 -/

theorem decode_segfail (hc : CryptoOk env.crypto) (hv : validateDecodingParams env (some p) = L8W8JWT_SUCCESS) (g : s.noAllocFail)
    (ht : TokenMem p tok) {rc : Nat} (hcode : ∀ x, SegCode p.alg tok x → x = rc) (hrc : rc ≠ L8W8JWT_SUCCESS) (b : Bool) :
    ∃ h', decode env (some p) false b false s h = .ok ({ rc := rc, validation := some 0xffffffff#32 }, h') := by
  have := wp_decode (s := s) (h := h) hc hv ht b false (Or.inr rfl) (fun _ => False)
    (Or.inl fun hx => absurd (hcode _ hx).symm hrc)
  obtain ⟨r, h', he, ⟨st, ho, -, rfl⟩, -⟩ := wp_iff_exists.mp this
  have hinfo : ∀ sg, SegInfo s p.alg tok sg → sg.rc = rc := fun sg hi => by
    rcases hi.code with hx | hx
    · exact hcode _ hx
    · exact absurd g hx.2
  have hst : st.rc = rc ∧ st.validation = 0xffffffff#32 := by
    cases ho with
    | oom hx => exact absurd g hx
    | segs hi hn => exact ⟨hinfo _ hi, rfl⟩
    | verify hi hn => exact absurd ((hinfo _ hi).symm.trans hn) hrc
    | claims hi hn => exact absurd ((hinfo _ hi).symm.trans hn) hrc
    | done hi hn => exact absurd ((hinfo _ hi).symm.trans hn) hrc
  refine ⟨h', ?_⟩
  rw [he]
  have hk : (b || decide (st.rc ≠ L8W8JWT_SUCCESS)) = true := by simp [hst.1, hrc]
  unfold decOut
  rw [if_pos hk, hst.1, hst.2]

/-- C31: a token without any dot. -/
theorem C31_no_dot (hc : CryptoOk env.crypto) (hv : validateDecodingParams env (some p) = L8W8JWT_SUCCESS) (g : s.noAllocFail)
    (ht : TokenMem p tok) (hd : 46 ∉ tok) (b : Bool) :
    ∃ h', decode env (some p) false b false s h =
      .ok ({ rc := L8W8JWT_DECODE_FAILED_INVALID_TOKEN_FORMAT, validation := some 0xffffffff#32 }, h') := by
  refine decode_segfail hc hv g ht (fun x hx => ?_) (by decide) b
  rcases hx with hx | ⟨a, b, h2, -⟩ | ⟨a, b, c, h3, -⟩
  · exact hx.2
  · exact absurd (by rw [h2.1]; simp) hd
  · exact absurd (by rw [h3.1]; simp) hd

/-- C31: a token without a second dot, for every algorithm but -1, provided its header decodes (otherwise the error is
BASE64_FAILURE). -/
theorem C31_missing_signature (hc : CryptoOk env.crypto) (hv : validateDecodingParams env (some p) = L8W8JWT_SUCCESS) (g : s.noAllocFail)
    (ht : TokenMem p tok) (ha : p.alg ≠ -1) {x y : Bytes} (h2 : TwoParts tok x y) (b : Bool) :
    ∃ h', decode env (some p) false b false s h = .ok ({
      rc := if b64Decode true x = none then L8W8JWT_BASE64_FAILURE else L8W8JWT_DECODE_FAILED_MISSING_SIGNATURE,
      validation := some 0xffffffff#32 }, h') := by
  refine decode_segfail hc hv g ht (fun rc hx => ?_) (by split <;> decide) b
  rcases hx with hx | ⟨a, b, h2', hx⟩ | ⟨a, b, c, h3, -⟩
  · exact absurd (by rw [h2.1]; simp) hx.1
  · obtain ⟨rfl, rfl⟩ := two_unique h2 h2'
    rcases hx with ⟨h1, rfl⟩ | ⟨h1, -, rfl⟩ | ⟨-, h1, -⟩ | ⟨-, h1, -⟩
    · rw [if_pos h1]
    · rw [if_neg h1]
    · exact absurd h1 ha
    · exact absurd h1 ha
  · exact (two_not_three h2 h3).elim

/-- C31: a token one of whose three parts is empty or not decodable. -/
theorem C31_bad_segment (hc : CryptoOk env.crypto) (hv : validateDecodingParams env (some p) = L8W8JWT_SUCCESS) (g : s.noAllocFail)
    (ht : TokenMem p tok) {x y z : Bytes} (h3 : ThreeParts tok x y z)
    (hbad : b64Decode true x = none ∨ b64Decode true y = none ∨ b64Decode true z = none) (b : Bool) :
    ∃ h', decode env (some p) false b false s h = .ok ({ rc := L8W8JWT_BASE64_FAILURE, validation := some 0xffffffff#32 }, h') := by
  refine decode_segfail hc hv g ht (fun rc hx => ?_) (by decide) b
  rcases hx with hx | ⟨a, b, h2', hx⟩ | ⟨a, b, c, h3', hx⟩
  · exact absurd (by rw [h3.1]; simp) hx.1
  · exact (two_not_three h2' h3).elim
  · obtain ⟨rfl, rfl, rfl⟩ := three_unique h3 h3'
    rcases hx with ⟨-, rfl⟩ | ⟨h1, h2, h3, -⟩
    · rfl
    · rcases hbad with h | h | h
      · exact absurd h h1
      · exact absurd h h2
      · exact absurd h h3

/-- An empty third part is such a part. -/
theorem C31_empty_signature : b64Decode true [] = none := by decide

example : verdict (toyDec (str "eyJhIjoxfQ.eyJhIjoxfQ.")) = some (L8W8JWT_BASE64_FAILURE, some 0xffffffff#32) ∧
    verdict (toyDec (str "eyJhIjoxfQ.eyJhIjoxfQ")) = some (L8W8JWT_DECODE_FAILED_MISSING_SIGNATURE, some 0xffffffff#32) ∧
    verdict (toyDec (str "eyJhIjoxfQ")) = some (L8W8JWT_DECODE_FAILED_INVALID_TOKEN_FORMAT, some 0xffffffff#32) := by decide +kernel

end L8w8jwt
