import Verif.Props.Codes
import Verif.Props.EncodeOom
/-!
# Property C60: how memory shortage is reported
-/

namespace L8w8jwt
open Spec

variable {s : Sched} {h h' : Heap} {env : Env}

/-- C60, encoder: whatever fails to be allocated (growing a buffer aside), a run that returns reports success, that the algorithm is
unknown, a failure to sign the text at hand, or one of two codes for lack of memory, and those only if an allocation fails. Missing for
the full statement: that `L8W8JWT_BASE64_FAILURE` is not among them, and that success means the complete token; both are false
(`C60_encode_false`, `C26_claims_dropped_false`). -/
theorem C60_encode_partial {p : EncParams} (hc : CryptoOk env.crypto) (hok : TextsOk env p) (hz : SizesOk p) (g : s.noGrowFail)
    (hv : validateEncodingParams (some p) = L8W8JWT_SUCCESS) {r : EncOut} (he : encode env (some p) s h = .ok (r, h')) :
    r.rc = Code.success ∨ (r.rc = Code.invalidArg ∧ alg? p.alg = none) ∨
    (∃ name sch e l e', alg? p.alg = some (name, sch) ∧ (e = extra p.headerClaims p.headerClaimsCount ∨ e = []) ∧
      (l = registeredWith timeText p ∨ l = []) ∧ (e' = extra p.payloadClaims p.payloadClaimsCount ∨ e' = []) ∧
      SignFails env p (signingInput (str "{" ++ commaSep (headerBase name) ++ headerTail p e) (payloadForm p l e')) r.rc) ∨
    ((∃ k, s.failAlloc k = true) ∧ (r.rc = Code.outOfMem ∨ r.rc = Code.base64)) := by
  have hw := wp_encode_with (s := s) (h := h) env p hok (fun msg sig => (∀ rc, ¬ SignFails env p msg rc) ∧ Emits env p msg sig)
    (fun msg rc => SignFails env p msg rc) (fun _ => True) hv
    (fun msg ha => sigOf_full hc p msg _ hv ha (Or.inr fun _ => trivial)) (fun _ _ h => h.2.2.1) (Or.inr fun _ => trivial)
  have hp := wp_iff_forall.mp hw r h' he
  by_cases hr : r.rc = L8W8JWT_SUCCESS
  · exact Or.inl hr
  · obtain ⟨-, -, -, hd⟩ := hp.failure hr
    rcases hd with ⟨h1, h2⟩ | ⟨b, hb, hbad⟩ | ⟨hdr, pay, msg, ⟨name, sch, ha, hh⟩, hpay, u, hs⟩ | hx
    · exact Or.inr (Or.inl ⟨h2, h1⟩)
    · exact (texts_small hz g hb hbad).elim
    · rcases hs with hs | ⟨sig, ⟨-, hs⟩, hbad⟩
      · obtain ⟨l, e', hl, he', hy⟩ := (hpay.2 (Or.inl g)).1
        rcases (hh.2 (Or.inl g)).1 with hx | hx
        · exact Or.inr (Or.inr (Or.inl ⟨name, sch, _, l, e', ha, Or.inl rfl, hl, he', by rw [u.2 (Or.inl g), hx, hy] at hs; exact hs⟩))
        · exact Or.inr (Or.inr (Or.inl ⟨name, sch, _, l, e', ha, Or.inr rfl, hl, he', by rw [u.2 (Or.inl g), hx, hy] at hs; exact hs⟩))
      · rcases hbad with hbad | hbad
        · exact (emits_ne hc hs hbad).elim
        · have := hs.2.1; omega
    · exact Or.inr (Or.inr (Or.inr hx))

/-- Only allocation number `j` fails. -/
def oneFails (j : Nat) : Sched := { failAlloc := fun k => k == j, failGrow := fun _ => none }

/-- The return code for the toy environment. -/
def encRc (p : EncParams) (s : Sched) : Option Nat :=
  match encode toy (some p) s heap0 with
  | .ok (r, _) => some r.rc
  | _ => none

example : encRc oomParams calm = some Code.success ∧ encRc oomParams (oneFails 0) = some Code.outOfMem ∧
    encRc oomParams (oneFails 4) = some Code.outOfMem ∧ encRc oomParams (oneFails 33) = some Code.outOfMem := by decide +kernel

/-- C60 is false for the encoder: if the text of the signature cannot be allocated, a base64 failure is reported (encode.c:563-568). -/
theorem C60_encode_false : ∃ s p, s.noGrowFail ∧ EncCode toy p Code.success ∧ encRc p s = some Code.base64 :=
  ⟨oneFails 30, oomParams, fun _ => rfl,
    .done rfl (not_signFails rfl rfl (fun _ _ hx => by cases hx) (fun _ hx => by cases hx) (fun hx => by cases hx)), by decide +kernel⟩

section
variable {p : DecParams} {tok : Bytes}

/-- The code at the end of the body, whatever fails. -/
theorem outcome_code_any {st : DecState} (ho : Outcome env s p tok st) :
    DecCode env p tok st.rc ∨ (¬ s.noAllocFail ∧ (st.rc = Code.outOfMem ∨ st.rc = Code.format)) := by
  by_cases g : s.noAllocFail
  · exact Or.inl (outcome_code g ho)
  have seg : ∀ {sg}, SegInfo s p.alg tok sg → SegCode p.alg tok sg.rc ∨ sg.rc = Code.outOfMem :=
    fun hi => hi.code.imp id (fun hx => hx.1)
  cases ho with
  | oom hn => exact Or.inr ⟨g, Or.inl rfl⟩
  | segs hi hn =>
    rcases seg hi with hx | hx
    · exact Or.inl (.segments hx hn)
    · exact Or.inr ⟨g, Or.inl hx⟩
  | verify hi hz hs =>
    have hz' : _ = Code.success := hz
    refine Or.inl (.verify ?_ (sig_verifyFails hs))
    rcases seg hi with hx | hx
    · rw [hz'] at hx; exact hx
    · rw [hz'] at hx; cases hx
  | claims hi hz hs hp hcl => exact Or.inr ⟨g, Or.inr rfl⟩
  | done hi hz hs hp hvw hcl hval hfs =>
    have hz' : _ = Code.success := hz
    obtain ⟨_, _, c1, c2, -⟩ := hfs
    refine Or.inl (.done ?_ (sig_not_verifyFails hs) hp
      ((claimsIn_accepts c1).resolve_right (fun hx => hx.1 rfl)).2 ((claimsIn_accepts c2).resolve_right (fun hx => hx.1 rfl)).2)
    rcases seg hi with hx | hx
    · rw [hz'] at hx; exact hx
    · rw [hz'] at hx; cases hx

/-- C60, decoder: in every run that returns, the code is the documented one, or it reports lack of memory or a malformed token, and
these only if the allocation of a block fails (buffers that cannot grow have no influence on the code). In particular success is
only reported for tokens that are accepted without failures. Missing for the full statement: that a failing allocation is never
reported as a malformed token, which is false (`C60_decode_false`). -/
theorem C60_decode_partial (hc : CryptoOk env.crypto) (hv : validateDecodingParams env (some p) = L8W8JWT_SUCCESS) (ht : TokenMem p tok)
    {a b : Bool} (hab : a = true ∨ b = false) {r : DecOut} (he : decode env (some p) false a b s h = .ok (r, h')) :
    DecCode env p tok r.rc ∨ (¬ s.noAllocFail ∧ (r.rc = Code.outOfMem ∨ r.rc = Code.format)) := by
  rcases decode_returns he with ⟨-, -, -, hbad⟩ | ⟨p1, st, g1, hp, -, -, -, hb, rfl⟩
  · exfalso
    rcases hbad with hn | hn | hn
    · exact hn hv
    · cases hn
    · rcases hab with h1 | h1 <;> rw [h1] at hn <;> simp at hn
  · cases hp
    have : (decOut a st).rc = st.rc := by unfold decOut; split <;> rfl
    rw [this]
    exact outcome_code_any (outcome_of hc hv ht hb)

/-- The same for `l8w8jwt_decode_raw`. -/
theorem C60_decodeRaw_partial (hc : CryptoOk env.crypto) (hv : validateDecodingParams env (some p) = L8W8JWT_SUCCESS) (ht : TokenMem p tok)
    {x : RawArgs} (hx : x.bad = false) {r : RawOut} (he : decodeRaw env (some p) false x s h = .ok (r, h')) :
    DecCode env p tok r.rc ∨ (¬ s.noAllocFail ∧ (r.rc = Code.outOfMem ∨ r.rc = Code.format)) := by
  rcases decodeRaw_returns he with ⟨-, -, -, hbad⟩ | ⟨p1, st, g1, hp, -, -, -, hb, rfl⟩
  · exfalso
    rcases hbad with hn | hn | hn
    · exact hn hv
    · cases hn
    · rw [hx] at hn; cases hn
  · cases hp
    exact outcome_code_any (outcome_of hc hv ht hb)

end

/-- The return code for the toy environment. -/
def decRc (p : DecParams) (s : Sched) : Option Nat :=
  match decode toy (some p) false false false s heap0 with
  | .ok (r, _) => some r.rc
  | _ => none

/-- C60 is false for the decoder: if a claim cannot be allocated, the token is reported to be malformed (decode.c:354-359, 822-835), although
without the failure it is accepted. -/
theorem C60_decode_false : ∃ s p, s.noGrowFail ∧ decRc p calm = some Code.success ∧ decRc p s = some Code.format :=
  ⟨oneFails 4, toyDec (mkTok hdr1 pay1 (toyMac hdr1 pay1)), fun _ => rfl, by decide +kernel, by decide +kernel⟩

/-- Other failures are reported as they should. -/
example : decRc (toyDec (mkTok hdr1 pay1 (toyMac hdr1 pay1))) (oneFails 0) = some Code.outOfMem ∧
    decRc (toyDec (mkTok hdr1 pay1 (toyMac hdr1 pay1))) (oneFails 3) = some Code.outOfMem := by decide +kernel

end L8w8jwt
