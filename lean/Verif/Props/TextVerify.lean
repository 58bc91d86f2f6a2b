import Verif.Props.TextDecode
/-!
# C83: what a caller may conclude from what the text of src/decode.c stores

The statements are about executions of the text of `l8w8jwt_decode` on memory and about the specifications of signatures and claims only.
-/

namespace L8w8jwt.C

open Spec

variable {env : Env} {fuel d : Nat} {s : Sched} {st : St} {P : Blk} {p : DecParams} {tok : Bytes}

/-- The signature in the token verifies under the algorithm and key of the caller, and the claims `es` are what the caller asked for. -/
structure _root_.L8w8jwt.Spec.Trusted (env : Env) (p : DecParams) (tok : Bytes) (es : List DClaim) : Prop where
  signature : SignatureOk env p tok
  iss : ¬ strFails (fun x => claimStarting x es) "iss" p.validateIss p.validateIssLength
  sub : ¬ strFails (fun x => claimStarting x es) "sub" p.validateSub p.validateSubLength
  aud : ¬ strFails (fun x => claimStarting x es) "aud" p.validateAud p.validateAudLength
  jti : ¬ strFails (fun x => claimStarting x es) "jti" p.validateJti p.validateJtiLength
  exp : ¬ lateFails (fun x => claimStarting x es) "exp" p.validateExp env.now p.expTolerance
  nbf : ¬ earlyFails (fun x => claimStarting x es) "nbf" p.validateNbf env.now p.nbfTolerance
  iat : ¬ earlyFails (fun x => claimStarting x es) "iat" p.validateIat env.now p.iatTolerance
  typ : ¬ typFails (fun x => claimStarting x es) p.validateTyp p.validateTypLength

theorem or_zero {a b : BitVec 32} : a ||| b = 0#32 ↔ a = 0#32 ∧ b = 0#32 := by
  constructor
  · intro h
    constructor <;> apply BitVec.eq_of_getElem_eq <;> intro i hi <;>
      (have := congrArg (fun x : BitVec 32 => x[i]) h; simp only [BitVec.getElem_or, BitVec.getElem_zero, Bool.or_eq_false_iff] at this; simp [this])
  · rintro ⟨rfl, rfl⟩
    rfl

theorem ite_zero {c : Prop} [Decidable c] {n : BitVec 32} (h : n ≠ 0) : (if c then n else (0 : BitVec 32)) = 0#32 ↔ ¬ c := by
  split <;> simp_all


theorem trusted_iff {es : List DClaim} : Trusted env p tok es ↔
    SignatureOk env p tok ∧ claimFlags (fun x => claimStarting x es) env.now p = 0#32 := by
  unfold claimFlags
  simp only [or_zero]
  rw [ite_zero (by decide), ite_zero (by decide), ite_zero (by decide), ite_zero (by decide), ite_zero (by decide), ite_zero (by decide),
    ite_zero (by decide), ite_zero (by decide)]
  exact ⟨fun ⟨a, b, c, d, e, f, g, h, i⟩ => ⟨a, ⟨⟨⟨⟨⟨⟨b, c⟩, d⟩, e⟩, f⟩, g⟩, h⟩, i⟩,
    fun ⟨a, ⟨⟨⟨⟨⟨⟨b, c⟩, d⟩, e⟩, f⟩, g⟩, h⟩, i⟩ => ⟨a, b, c, d, e, f, g, h, i⟩⟩

theorem flag_bit {b f : BitVec 32} (hb : b = 0#32 ∨ b = 128#32) (hf : f &&& 128#32 = 0#32) : SigFailed (b ||| f) ↔ b = 128#32 := by
  unfold SigFailed
  have : L8W8JWT_SIGNATURE_VERIFICATION_FAILURE = 128#32 := rfl
  rw [this]
  have h : (b ||| f) &&& 128#32 = (b &&& 128#32) ||| (f &&& 128#32) := by
    apply BitVec.eq_of_getElem_eq
    intro i hi
    simp [Bool.and_or_distrib_right]
  rw [h, hf]
  rcases hb with rfl | rfl <;> decide

theorem claimFlags_128 {find : Bytes → Option DClaim} {now : Int} {p : DecParams} : claimFlags find now p &&& 128#32 = 0#32 := by
  have key : ∀ (a b : BitVec 32), a &&& 128#32 = 0#32 → b &&& 128#32 = 0#32 → (a ||| b) &&& 128#32 = 0#32 := by
    intro a b ha hb
    have h : (a ||| b) &&& 128#32 = (a &&& 128#32) ||| (b &&& 128#32) := by
      apply BitVec.eq_of_getElem_eq
      intro i hi
      simp [Bool.and_or_distrib_right]
    rw [h, ha, hb]
    rfl
  have one : ∀ (c : Bool) (n : BitVec 32), n &&& 128#32 = 0#32 → (if c = true then n else (0 : BitVec 32)) &&& 128#32 = 0#32 := by
    intro c n hn
    cases c
    · simp
    · simpa using hn
  unfold claimFlags
  exact key _ _ (key _ _ (key _ _ (key _ _ (key _ _ (key _ _ (key _ _ (one _ _ (by decide)) (one _ _ (by decide))) (one _ _ (by decide)))
    (one _ _ (by decide))) (one _ _ (by decide))) (one _ _ (by decide))) (one _ _ (by decide))) (one _ _ (by decide))

/-- **C83** The text of `l8w8jwt_decode`, for the algorithms 0..13 and whatever allocations fail, where C47 says that decoding is defined: it
ends without undefined behaviour. If it fails, all flags are stored. If it reports success, then the flag of the signature is stored exactly
if the signature of the token does not verify under the algorithm and key of the caller; and the result VALID (0) is stored exactly if it
verifies and the claims that are in memory at the address stored pass the validations the caller asked for. These claims are claims of
the token, and all of them unless growing the array of claims fails. -/
theorem C83_valid_text {O1 O2 O3 : Blk} (c : DecCall env fuel st P p [some O1, some O2, some O3]) (hc : CryptoOk env.crypto)
    (hv : validateDecodingParams env (some p) = L8W8JWT_SUCCESS) (ht : TokenMem p tok) (hx : ExpectOk p) (hn : NowOk env.now)
    (t : Tame env s p tok) (h0 : 0 ≤ p.alg) (h13 : p.alg ≤ 13) :
    ∃ (rc : Nat) (st' : St), runFun (cx env fuel (d + 3)) Src.l8w8jwt_decode
          [.ptr (some (P, 0)), .ptr (some (O1, 0)), .ptr (some (O2, 0)), .ptr (some (O3, 0))] s st = .ok (.int rc, st') ∧
      (rc ≠ L8W8JWT_SUCCESS → st'.mem O1 = some [.int 0xffffffff]) ∧
      (rc = L8W8JWT_SUCCESS → ∃ v ds es w, st'.mem O1 = some [.int v.toNat] ∧ (SigFailed v ↔ ¬ SignatureOk env p tok) ∧
        st'.mem O2 = some [w] ∧ ShowsClaims st'.mem w es ∧ st'.mem O3 = some [.int es.length] ∧ (v = 0#32 ↔ Trusted env p tok es) ∧
        (∃ v', Answer env p tok Code.success v' ds) ∧ es.Sublist ds ∧ (s.noGrowFail ∨ ds.length ≤ 16 → es = ds)) := by
  obtain ⟨r, h', he⟩ := (C47_decode_defined_partial (h := st.heap) hc hv ht t false false false {}).1
  obtain ⟨mem', e, D⟩ := decode_text (d := d) c he
  refine ⟨r.rc, _, e, ?_⟩
  have g1 := D.validation O1 rfl
  have g2 := D.claims O2 rfl
  have g3 := D.length O3 rfl
  rcases C67_decode hc hv ht hx hn he with ⟨a1, a2, a3, a4⟩ | ⟨a1, v, ds, arr, es, b, b1, b2, b3, b4, b5, b6, b7, b8, b9⟩
  · rw [a2] at g1
    exact ⟨fun _ => g1, fun h => absurd h a1⟩
  · refine ⟨fun h => absurd a1 h, fun _ => ?_⟩
    have hs : SigFailed (b ||| claimFlags (fun x => claimStarting x es) env.now p) ↔ ¬ SignatureOk env p tok :=
      ⟨fun hf hok => C28_verified_conv hc ht h0 h13 hok he a1 b9 hf,
        fun hno => Classical.byContradiction fun hf => hno (C28_verified_partial hc ht h0 h13 he a1 b9 hf)⟩
    rw [b9] at g1
    rw [b4] at g2
    rw [b5] at g3
    refine ⟨_, ds, es, _, g1, hs, g2, showsClaims (D.array arr b4).1 b6, g3, ?_, ⟨v, b1⟩, b7, b8⟩
    rw [trusted_iff, or_zero]
    rw [flag_bit b2 claimFlags_128] at hs
    refine and_congr ⟨fun h => Classical.byContradiction fun hno => ?_, fun hok => ?_⟩ Iff.rfl
    · have := hs.mpr hno
      subst h
      exact absurd this (by decide)
    · rcases b2 with h | h
      · exact h
      · exact absurd hok (hs.mp h)

/-- **C83** For the HMAC algorithms and a signature of the length of the MAC: the flag of the signature is stored exactly if the third part of
the token is not the MAC of the first two under the key of the caller. -/
theorem C83_hmac_text {O1 O2 O3 : Blk} (c : DecCall env fuel st P p [some O1, some O2, some O3]) (hc : CryptoOk env.crypto)
    (hv : validateDecodingParams env (some p) = L8W8JWT_SUCCESS) (ht : TokenMem p tok) (t : Tame env s p tok) (name : String) (md : Md)
    (ha : alg? p.alg = some (name, .hmac md)) {x y z sig : Bytes} (h3 : ThreeParts tok x y z) (hd : b64Decode true z = some sig)
    (hl : sig.length = md.len) (hk : CertOk env.crypto (verKey p)) :
    ∃ (rc : Nat) (st' : St), runFun (cx env fuel (d + 3)) Src.l8w8jwt_decode
          [.ptr (some (P, 0)), .ptr (some (O1, 0)), .ptr (some (O2, 0)), .ptr (some (O3, 0))] s st = .ok (.int rc, st') ∧
      (rc = L8W8JWT_SUCCESS → ∃ v : VRes, st'.mem O1 = some [.int v.toNat] ∧
        (¬ SigFailed v ↔ env.crypto.hmac md (hmacKey (verKey p)) (x ++ 46 :: y) = some sig)) := by
  obtain ⟨r, h', he⟩ := (C47_decode_defined_partial (h := st.heap) hc hv ht t false false false {}).1
  obtain ⟨mem', e, D⟩ := decode_text (d := d) c he
  refine ⟨r.rc, _, e, fun hr => ?_⟩
  have g1 := D.validation O1 rfl
  cases hrv : r.validation with
  | none =>
    exfalso
    rcases decode_returns he with ⟨h1, h2, -⟩ | ⟨p', q, h1, hp, -, -, -, -, rfl⟩
    · exact h2 hr
    · unfold decOut at hrv
      split at hrv <;> cases hrv
  | some v =>
    rw [hrv] at g1
    exact ⟨v, g1, C29_hmac_exact_length hc ht name md ha h3 hd hl hk he hr hrv⟩

/-! ## Examples -/

/-- As `exTok`, and `iss` is expected to be `me`. The token has the payload `pay` and the MAC of the payload `signed`. -/
def exIss (pay signed : String) : St :=
  let st := exTok (mkTok hdr1 pay (toyMac hdr1 signed))
  { st with
    stk := 11
    mem := fun b => match b with
      | .stack 2 => (st.mem b).map fun l => (l.set 3 (exPtr 10 0)).set 4 (.int 2)
      | .stack 10 => some (cells (str "me"))
      | _ => st.mem b }

/-- The right issuer and the right MAC; the wrong issuer; the wrong MAC. -/
example :
    (exOut (runFun (cx toy 400 3) Src.l8w8jwt_decode [exPtr 2 0, exPtr 3 0, .ptr none, .ptr none] calm
      (exIss "{\"iss\":\"me\"}" "{\"iss\":\"me\"}")) [3]) = some (.int 0, [some [.int 0]], []) ∧
    (exOut (runFun (cx toy 400 3) Src.l8w8jwt_decode [exPtr 2 0, exPtr 3 0, .ptr none, .ptr none] calm
      (exIss "{\"iss\":\"you\"}" "{\"iss\":\"you\"}")) [3]) = some (.int 0, [some [.int 1]], []) ∧
    (exOut (runFun (cx toy 400 3) Src.l8w8jwt_decode [exPtr 2 0, exPtr 3 0, .ptr none, .ptr none] calm
      (exIss "{\"iss\":\"me\"}" "{\"iss\":\"you\"}")) [3]) = some (.int 0, [some [.int 128]], []) := by
  refine ⟨?_, ?_, ?_⟩ <;> decide +kernel

end L8w8jwt.C
