import Verif.Props.DecodeRaw
import Verif.Proofs.LooseDecode
/-!
# Properties C47-C50 (decoder): memory safety, keys, leaks, ECDSA signatures
-/

namespace L8w8jwt
open Spec

variable {s : Sched} {h h' : Heap} {env : Env} {p : DecParams} {tok : Bytes}

/-! ## C47 -/

theorem roomFor_few (g : s.noGrowFail ∨ FewClaims env tok) : RoomFor env s tok := by
  rcases g with g | g
  · exact Or.inl g
  · refine Or.inr fun a b hp => ?_
    obtain ⟨ok1, ds1, n1, b1, ok2, ds2, n2, b2, p1, f1, p2, f2, hl⟩ := g a b hp
    obtain ⟨v1, -, e1⟩ := claimsIn_parsed p1
    obtain ⟨v2, -, e2⟩ := claimsIn_parsed p2
    rw [fits_look f1] at e1
    rw [fits_look f2] at e2
    exact ⟨_, _, e1, e2, hl⟩

theorem _root_.L8w8jwt.Spec.Tame.safe (t : Tame env s p tok) (hs : SegCode p.alg tok L8W8JWT_SUCCESS) : DecSafe env s p tok := by
  refine ⟨t.stack, t.key, fun ha a b c h3 => ?_, fun _ a b hp => claimsIn_roomy (t.tokens a b hp).1,
    fun _ a b hp => Or.inl (claimsIn_roomy (t.tokens a b hp).2), t.expect, t.now, fun _ => ?_⟩
  · have hd : ∃ d, b64Decode true c = some d := by
      rcases hs with ⟨hd, -⟩ | ⟨a', b', p1, -⟩ | ⟨a', b', c', p1, h1⟩
      · exact absurd (by rw [h3.1]; simp) hd
      · exact (two_not_three p1 h3).elim
      · obtain ⟨rfl, rfl, rfl⟩ := three_unique p1 h3
        rcases h1 with ⟨-, h1⟩ | ⟨-, -, z1, -⟩
        · exact absurd h1 (by decide)
        · exact Option.ne_none_iff_exists'.mp z1
    obtain ⟨d, hd⟩ := hd
    have hl := (segBuf_length hd).2
    simp only [List.length_append] at hl
    have f := t.sig ha a b c d h3 hd
    exact VerSafe.defined ⟨t.fits ha, fun name md hm => by have := f.hmac name md hm; omega,
      fun name md pk hm hk => ⟨(f.pss name md pk hm hk).1, by have := (f.pss name md pk hm hk).2; omega⟩, f.ecdsa,
      fun name hm _ hk => by have := f.eddsa name hm hk; omega⟩ hd _
  · refine t.typ.imp id (Or.imp id ?_)
    rintro ⟨g, ht⟩
    refine ⟨roomFor_few g, fun a b ds1 ds2 hp h1 h2 => ?_⟩
    have hx := ht a b hp
    obtain ⟨ok1, n1, b1, p1, e1, -⟩ := claimsIn_ok h1
    obtain ⟨ok2, n2, b2, p2, e2, -⟩ := claimsIn_ok h2
    have o1 : ok1 = true := by cases ok1 with | true => rfl | false => exact absurd e1 (by decide)
    have o2 : ok2 = true := by cases ok2 with | true => rfl | false => exact absurd e2 (by decide)
    subst o1; subst o2
    exact hx _ _ _ _ _ _ p1 p2

/-- C47: `l8w8jwt_decode` and `l8w8jwt_decode_raw` have no undefined behaviour under the conditions of `Tame`. Missing for
the full statement: the other tokens, for which it is false (`C47_short_hmac_false`, `C47_wrong_key_false`,
`C47_typ_false`, and tokens with many JSON tokens). -/
theorem C47_decode_defined_partial (hc : CryptoOk env.crypto) (hv : validateDecodingParams env (some p) = L8W8JWT_SUCCESS)
    (ht : TokenMem p tok) (t : Tame env s p tok) (a b c : Bool) (x : RawArgs) :
    (∃ r h', decode env (some p) a b c s h = .ok (r, h')) ∧ (∃ r h', decodeRaw env (some p) a x s h = .ok (r, h')) := by
  constructor
  · by_cases hg : (!b && c) = true
    · exact ⟨_, _, by simp only [decode, if_pos hg]; rfl⟩
    · cases a with
      | true =>
        simp only [decode, if_neg hg, hv]
        exact ⟨_, _, rfl⟩
      | false =>
        have hl : b = true ∨ c = false := by cases b <;> cases c <;> simp_all
        obtain ⟨r, h', he, -⟩ := wp_iff_exists.mp (wp_decode (s := s) (h := h) hc hv ht b c hl (fun _ => False) (Or.inl t.safe))
        exact ⟨r, h', he⟩
  · by_cases hg : (a || x.bad) = true
    · exact ⟨_, _, by simp only [decodeRaw, if_pos hg]; rfl⟩
    · simp only [Bool.or_eq_true, not_or] at hg
      have ha : a = false := by simpa using hg.1
      subst ha
      obtain ⟨r, h', he, -⟩ := wp_iff_exists.mp (wp_decodeRaw (s := s) (h := h) hc hv ht x (by simpa using hg.2) (fun _ => False) (Or.inl t.safe))
      exact ⟨r, h', he⟩

/-- Undefined behaviour of verification is undefined behaviour of decoding. -/
theorem decode_ub {a b c d : Bytes} {e : UB} (hv : validateDecodingParams env (some p) = L8W8JWT_SUCCESS) (ht : TokenMem p tok)
    (g : s.noAllocFail) (ha : p.alg ≠ -1) (h3 : ThreeParts tok a b c) (d1 : b64Decode true a ≠ none) (d2 : b64Decode true b ≠ none)
    (d3 : b64Decode true c = some d) (he : verifyBody env p (segBuf c) d.length = .error e) :
    decode env (some p) false false false s h = .error e ∧ decodeRaw env (some p) false {} s h = .error e := by
  have hb : decodeBody env p s h = .error e := by
    have hw : wp (decodeBody env p) s h (fun _ _ => False) (fun x => x = e) := by
      rw [decodeBody_eq, wp_bind, wp_alloc]
      refine ⟨fun hf => absurd (g h.tick) (by rw [hf]; decide), fun _ => ?_⟩
      simp only
      rw [wp_bind]
      refine wp_mono (wp_decodeSegments p tok ht _) (fun sg h2 q => ?_) (fun _ he => he)
      have hrc : sg.rc = L8W8JWT_SUCCESS := by
        refine SegCode_unique (q.code.resolve_right (fun hx => hx.2 g)) (Or.inr (Or.inr ⟨a, b, c, h3, Or.inr ⟨d1, d2, ?_, rfl⟩⟩))
        rw [d3]; simp
      rw [if_neg (by simp [hrc]), wp_bind]
      rcases q.parts with ⟨hn, -⟩ | ⟨a', b', h2, -⟩ | ⟨a', b', c', h3', -, -, -, hs⟩
      · exact absurd (by rw [h3.1]; simp) hn
      · exact (two_not_three h2 h3).elim
      · obtain ⟨rfl, rfl, rfl⟩ := three_unique h3 h3'
        obtain ⟨-, -, id, d', e1, e2, e3⟩ := hs hrc
        rw [d3] at e2; cases e2
        rw [e1, e3]
        have hd0 : d.length ≠ 0 := fun hx => decode_ne_nil d3 (List.eq_nil_of_length_eq_zero hx)
        refine wp_mono (wp_verifySignature (Q := fun _ => False) L8W8JWT_VALID id (segBuf c) d.length ha hd0 (fun x => x = e)
          (Or.inl (Or.inr g)) ?_) (fun r h3 hr => ?_) (fun _ he => he)
        · rw [he]; rfl
        · obtain ⟨-, vr, hr, -⟩ := hr; exact hr.elim
    revert hw
    unfold wp
    cases decodeBody env p s h with
    | error x => intro hw; rw [show x = e from hw]
    | ok x => intro hw; exact hw.elim
  constructor
  · simp only [decode, hv, Bool.not_false, Bool.and_false, Bool.false_eq_true, if_false, ne_eq, not_true_eq_false]
    rw [run_bind, hb]
  · simp only [decodeRaw, hv, RawArgs.bad, Bool.not_false, Bool.and_false, Bool.or_self, Bool.false_eq_true, if_false, ne_eq, not_true_eq_false]
    rw [run_bind, decodeRawBody_eq, hb]

/-- Up to the switch over the algorithms. -/
theorem verifyBody_switch (hv : validateDecodingParams env (some p) = L8W8JWT_SUCCESS) (hr : VerKeyReadable p)
    (hf : KeyFits (verKey p)) (hn : ¬ contains (str "-----BEGIN CERTIFICATE-----") (cString (verKey p)))
    {a b c : Bytes} (ht : TokenMem p tok) (h3 : ThreeParts tok a b c) {hash : Bytes}
    (hh : verifyHash env.crypto p.alg (a ++ 46 :: b) = some hash) (sig : Bytes) (n : Nat) :
    verifyBody env p sig n = verifySwitch env p.alg none (padTo L8W8JWT_MAX_KEY_SIZE (verKey p))
      (if (verKey p).getLast? = some 0 then (verKey p).length else (verKey p).length + 1) (a ++ 46 :: b) hash sig n := by
  obtain ⟨mem, hm, hk1, hk2⟩ := validate_verKey hv
  have hkr := hr mem hm
  have hkk : verKey p = mem.take p.verificationKeyLength := by simp [verKey, hm]
  have hkl : (verKey p).length = p.verificationKeyLength := by rw [hkk]; simp [hkr]
  unfold verifyBody
  rw [hm, loadKey_eq _ _ hk1 hk2 hkr, ← hkk, ← hkl]
  simp only [bind, Except.bind]
  unfold loadCrt
  have hz : (verKey p).length < L8W8JWT_MAX_KEY_SIZE ∨ 0 ∈ verKey p := hf.imp id List.mem_of_getLast?
  rw [strstr_key _ _ _ hz]
  have hi : hasInfix (str "-----BEGIN CERTIFICATE-----") (cString (verKey p)) = false := by
    cases hx : hasInfix (str "-----BEGIN CERTIFICATE-----") (cString (verKey p)) with
    | false => rfl
    | true => exact absurd ((hasInfix_iff _ _).mp hx) hn
  simp only [bind, Except.bind, hi, Bool.false_eq_true, if_false]
  obtain ⟨⟨junk, hj⟩, h0, -, -⟩ := ht
  obtain ⟨rfl, ha, hb⟩ := h3
  have h0a : (0 : UInt8) ∉ a := fun hx => h0 (by simp [hx])
  have h0b : (0 : UInt8) ∉ b := fun hx => h0 (by simp [hx])
  rw [hj]
  simp only [List.append_assoc, List.cons_append, deref]
  rw [signatureDot_eq _ _ _ _ ha hb h0a h0b]
  simp only
  have hmsg : rdN (a ++ 46 :: (b ++ 46 :: (c ++ 0 :: junk))) (a.length + 1 + b.length) = .ok (a ++ 46 :: b) := by
    rw [show a ++ 46 :: (b ++ 46 :: (c ++ 0 :: junk)) = (a ++ 46 :: b) ++ (46 :: (c ++ 0 :: junk)) by simp,
      show a.length + 1 + b.length = (a ++ 46 :: b).length by simp; omega, rdN, if_pos (by simp), List.take_left]
  rw [hmsg]
  simp only
  rw [hh]

/-- C47 is false: for every HMAC algorithm, every key (that is not a certificate) and every token with decodable segments
whose signature text is too short, the comparison of the MAC reads beyond the end of the signature buffer. `relevant` are the
characters of the base64url alphabet. -/
theorem C47_short_hmac_false (hc : CryptoOk env.crypto) (hv : validateDecodingParams env (some p) = L8W8JWT_SUCCESS)
    (ht : TokenMem p tok) (g : s.noAllocFail) (hr : VerKeyReadable p) (hf : (verKey p).length < 8192)
    (hn : ¬ contains (str "-----BEGIN CERTIFICATE-----") (cString (verKey p)))
    {name : String} {md : Md} (hal : alg? p.alg = some (name, .hmac md)) {a b c : Bytes} (h3 : ThreeParts tok a b c)
    (d1 : b64Decode true a ≠ none) (d2 : b64Decode true b ≠ none) (d3 : b64Decode true c ≠ none)
    (hm : env.crypto.hmac md (hmacKey (verKey p)) (a ++ 46 :: b) ≠ none)
    (hs : (c.filter (relevant true)).length / 4 * 3 + 16 < md.len) :
    decode env (some p) false false false s h = .error .oobRead ∧ decodeRaw env (some p) false {} s h = .error .oobRead := by
  obtain ⟨d, d3⟩ := Option.ne_none_iff_exists'.mp d3
  obtain ⟨t, hm⟩ := Option.ne_none_iff_exists'.mp hm
  rcases alg_cases p.alg with ⟨h, -⟩ | ⟨n', sch, hs', hsch⟩
  · rw [hal] at h; cases h
  rw [hal] at hs'
  cases hs'
  obtain ⟨hi, hmd, hlen, hh⟩ := hsch
  have ha : p.alg ≠ -1 := by omega
  obtain ⟨mem, hm1, hk1, hk2⟩ := validate_verKey hv
  have hkr := hr mem hm1
  have hkk : verKey p = mem.take p.verificationKeyLength := by simp [verKey, hm1]
  have hkl : (verKey p).length = p.verificationKeyLength := by rw [hkk]; simp [hkr]
  refine decode_ub hv ht g ha h3 d1 d2 d3 ?_
  rw [verifyBody_switch hv hr (Or.inl hf) hn ht h3 (hash := []) (by simp [verifyHash, hh]) _ _,
    switch_hmac _ _ _ _ _ _ _ _ hi hmd, verifyHmac_eq hc _ _ _ _ _ _ _ hlen (rdN_hmac _ _ (by omega) (by omega)), hm]
  simp only
  rw [if_neg]
  rw [(segBuf_length d3).1]
  omega

/-- A token any attacker can write: its signature is one byte long. -/
example : ∃ p tok, TokenMem p tok ∧ validateDecodingParams toy (some p) = L8W8JWT_SUCCESS ∧
    decode toy (some p) false false false calm heap0 = .error .oobRead := by
  have h0 : (0 : UInt8) ∉ mkTok hdr1 pay1 [1] := by decide
  have hl : (mkTok hdr1 pay1 [1]).length < 2 ^ 63 := by decide
  refine ⟨toyDec (mkTok hdr1 pay1 [1]) 0, mkTok hdr1 pay1 [1], toyDec_mem _ _ h0 hl, by decide +kernel, by decide +kernel⟩

/-- C47 is false: with ES256/384/512/256K and a verification key that is not an elliptic curve key (e.g. an RSA key), any token
with decodable segments makes the code dereference NULL. -/
theorem C47_wrong_key_false (hc : CryptoOk env.crypto) (hv : validateDecodingParams env (some p) = L8W8JWT_SUCCESS)
    (ht : TokenMem p tok) (g : s.noAllocFail) (hr : VerKeyReadable p) (hf : (verKey p).length < 8192)
    (hn : ¬ contains (str "-----BEGIN CERTIFICATE-----") (cString (verKey p)))
    {name : String} {md : Md} {sch : Scheme} (hal : alg? p.alg = some (name, sch)) {pk : env.crypto.PK}
    (hpk : env.crypto.parsePublicKey (pemKey (verKey p)) = some pk)
    (hsch : (sch = .pss md ∧ env.crypto.isRsa pk = false) ∨ ∃ cv n bits, sch = .ecdsa md cv n bits ∧ env.crypto.isEc pk = false)
    {a b c : Bytes} (h3 : ThreeParts tok a b c) (d1 : b64Decode true a ≠ none) (d2 : b64Decode true b ≠ none)
    (d3 : b64Decode true c ≠ none) (hm : env.crypto.md md (a ++ 46 :: b) ≠ none) :
    decode env (some p) false false false s h = .error .nullDeref ∧ decodeRaw env (some p) false {} s h = .error .nullDeref := by
  obtain ⟨d, d3⟩ := Option.ne_none_iff_exists'.mp d3
  obtain ⟨t, hm⟩ := Option.ne_none_iff_exists'.mp hm
  obtain ⟨mem, hm1, hk1, hk2⟩ := validate_verKey hv
  have hkr := hr mem hm1
  have hkk : verKey p = mem.take p.verificationKeyLength := by simp [verKey, hm1]
  have hkl : (verKey p).length = p.verificationKeyLength := by rw [hkk]; simp [hkr]
  have hvp : verificationPk env.crypto none (padTo L8W8JWT_MAX_KEY_SIZE (verKey p))
      (if (verKey p).getLast? = some 0 then (verKey p).length else (verKey p).length + 1) = .ok (some pk) := by
    unfold verificationPk
    simp only
    rw [rdN_pem _ _ (by omega), if_pos (Or.inl hf)]
    simp only [bind, Except.bind, hpk]
  rcases alg_cases p.alg with ⟨h, -⟩ | ⟨n', sch', hs', hsch'⟩
  · rw [hal] at h; cases h
  rw [hal] at hs'
  cases hs'
  rcases hsch with ⟨rfl, hk⟩ | ⟨cv, n, bits, rfl, hk⟩
  · obtain ⟨hi, hmd, hh⟩ := hsch'
    refine decode_ub hv ht g (by omega) h3 d1 d2 d3 ?_
    rw [verifyBody_switch hv hr (Or.inl hf) hn ht h3 (hash := t) (by simp [verifyHash, hh, hmd, hashOf_eq hc, hm]) _ _,
      switch_pss _ _ _ _ _ _ _ _ hi hmd]
    unfold verifyPss
    rw [hvp]
    simp [bind, Except.bind, hk]
  · obtain ⟨hi, hmd, hh⟩ := hsch'
    refine decode_ub hv ht g (by omega) h3 d1 d2 d3 ?_
    rw [verifyBody_switch hv hr (Or.inl hf) hn ht h3 (hash := t) (by simp [verifyHash, hh, hmd, hashOf_eq hc, hm]) _ _,
      switch_ecdsa _ _ _ _ _ _ _ _ hi]
    unfold verifyEcdsa
    rw [hvp]
    simp [bind, Except.bind, hk]

/-- RSA key, ES256. -/
example : ∃ p tok, TokenMem p tok ∧ validateDecodingParams toy (some p) = L8W8JWT_SUCCESS ∧ p.alg = 9 ∧
    decode toy (some p) false false false calm heap0 = .error .nullDeref := by
  have h0 : (0 : UInt8) ∉ mkTok hdr1 pay1 [1] := by decide
  have hl : (mkTok hdr1 pay1 [1]).length < 2 ^ 63 := by decide
  refine ⟨{ toyDec (mkTok hdr1 pay1 [1]) 9 with verificationKey := some (str "R") , verificationKeyLength := 1 }, mkTok hdr1 pay1 [1],
    toyDec_mem (mkTok hdr1 pay1 [1]) 9 h0 hl, by decide +kernel, rfl, by decide +kernel⟩

/-- The signing text and signature of a toy token with arbitrary bytes. -/
def mkTokB (hdr pay sig : Bytes) : Bytes := b64 true hdr ++ 46 :: (b64 true pay ++ 46 :: b64 true sig)

/-- C47 is false: where `char` is signed, validating `typ` of a token whose `typ` is not ASCII calls `tolower` with a negative
argument (the token needs no valid signature). -/
theorem C47_typ_false : ∃ p tok, TokenMem p tok ∧ validateDecodingParams toy (some p) = L8W8JWT_SUCCESS ∧ ExpectOk p ∧
    decode toy (some p) false false false calm heap0 = .error .badCtype := by
  have h0 : (0 : UInt8) ∉ mkTokB (str "{\"typ\":\"" ++ [195, 164] ++ str "\"}") (str pay1) (List.replicate 32 65) := by decide +kernel
  have hl : (mkTokB (str "{\"typ\":\"" ++ [195, 164] ++ str "\"}") (str pay1) (List.replicate 32 65)).length < 2 ^ 63 := by decide +kernel
  refine ⟨{ toyDec (mkTokB (str "{\"typ\":\"" ++ [195, 164] ++ str "\"}") (str pay1) (List.replicate 32 65)) with
    validateTyp := some (str "JWT" ++ [0]), validateTypLength := 3 }, _, toyDec_mem _ 0 h0 hl, by decide +kernel, ?_, by decide +kernel⟩
  refine ⟨fun _ he => (nomatch he), fun _ he => (nomatch he), fun _ he => (nomatch he), fun _ he => (nomatch he), fun e he => ?_⟩
  cases he; decide

/-- The conditions of `Tame` hold for an ordinary token. -/
example : Tame toy calm (toyDec (mkTok hdr1 pay1 (toyMac hdr1 pay1))) (mkTok hdr1 pay1 (toyMac hdr1 pay1)) where
  stack := Or.inl rfl
  key := fun mem hm => by cases hm; decide
  fits := fun _ => Or.inl (by decide)
  sig := fun _ a b c d h3 hd => by
    have h3' : ThreeParts (mkTok hdr1 pay1 (toyMac hdr1 pay1)) (b64 true (str hdr1)) (b64 true (str pay1)) (b64 true (toyMac hdr1 pay1)) :=
      ⟨rfl, dot_not_mem_b64 _, dot_not_mem_b64 _⟩
    obtain ⟨rfl, rfl, rfl⟩ := three_unique h3 h3'
    rw [b64Decode_b64 (by decide +kernel)] at hd
    cases hd
    have hl : (toyMac hdr1 pay1).length = 32 := by decide +kernel
    refine ⟨fun name md hm => ?_, fun name md pk hm => ?_, fun name md cv n b pk hm => ?_, fun name hm => ?_⟩
    · have : alg? 0 = some (name, .hmac md) := hm
      cases this
      rw [hl]; decide
    · have : alg? 0 = some (name, .pss md) := hm
      cases this
    · have : alg? 0 = some (name, .ecdsa md cv n b) := hm
      cases this
    · have : alg? 0 = some (name, .eddsa) := hm
      cases this
  tokens := fun a b hp => by
    have h3' : ThreeParts (mkTok hdr1 pay1 (toyMac hdr1 pay1)) (b64 true (str hdr1)) (b64 true (str pay1)) (b64 true (toyMac hdr1 pay1)) :=
      ⟨rfl, dot_not_mem_b64 _, dot_not_mem_b64 _⟩
    rcases hp with hp | ⟨c, hp⟩
    · exact (two_not_three hp h3').elim
    · obtain ⟨rfl, rfl, rfl⟩ := three_unique hp h3'
      have e1 : jsmnCount (str hdr1) = .ok 3 := by decide +kernel
      have e2 : jsmnCount (str pay1) = .ok 3 := by decide +kernel
      refine ⟨few_roomy (cString_zero _) ?_, few_roomy (cString_zero _) ?_⟩
      · rw [readText, jsonOf, b64Decode_b64 (by decide), ← fewItems_iff]
        exact fun n hn => by rw [Option.getD_some, e1] at hn; cases hn; decide
      · rw [readText, jsonOf, b64Decode_b64 (by decide), ← fewItems_iff]
        exact fun n hn => by rw [Option.getD_some, e2] at hn; cases hn; decide
  expect := ⟨fun _ he => (nomatch he), fun _ he => (nomatch he), fun _ he => (nomatch he), fun _ he => (nomatch he), fun _ he => (nomatch he)⟩
  now := ⟨by decide, by decide⟩
  typ := Or.inl rfl

/-! ## C48 (decoder) -/

/-- C48: signature verification stays inside the key buffer for every accepted key that leaves room for its terminator (shorter
than 8192 bytes, or NUL-terminated); the other condition, `SigFits`, is about the signature. Missing for the full statement: keys
of 8192 bytes without a terminator, for which it is false (`C48_decode_key_false`). -/
theorem C48_decode_key_partial (hc : CryptoOk env.crypto) (hv : validateDecodingParams env (some p) = L8W8JWT_SUCCESS)
    {a b c d : Bytes} (ht : TokenMem p tok) (h3 : ThreeParts tok a b c) (hd : b64Decode true c = some d) (hr : VerKeyReadable p)
    (hf : (verKey p).length < 8192 ∨ (verKey p).getLast? = some 0) (hs : SigFits env p d) :
    ∃ r, verifyBody env p (segBuf c) d.length = .ok r := by
  have hl := (segBuf_length hd).2
  simp only [List.length_append] at hl
  have hvs : VerSafe env p c := ⟨hf, fun name md hm => by have := hs.hmac name md hm; omega,
    fun name md pk hm hk => ⟨(hs.pss name md pk hm hk).1, by have := (hs.pss name md pk hm hk).2; omega⟩, hs.ecdsa,
    fun name hm _ hk => by have := hs.eddsa name hm hk; omega⟩
  obtain ⟨r, e, -⟩ := rwp_iff_exists.mp (verifyBody_post hc hv ht h3 hd (fun _ => False) (Or.inl ⟨hr, hvs.defined hd _⟩))
  exact ⟨r, e⟩

/-- C48 is false: for every algorithm (even unknown ones, HMAC and EdDSA), every accepted key of 8192 bytes without NUL and every
token with decodable segments, the search for the certificate marker reads beyond the key buffer. -/
theorem C48_decode_key_false (hv : validateDecodingParams env (some p) = L8W8JWT_SUCCESS) (ht : TokenMem p tok) (g : s.noAllocFail)
    (hr : VerKeyReadable p) (ha : p.alg ≠ -1) (hl : (verKey p).length = 8192) (h0 : 0 ∉ verKey p) {a b c : Bytes}
    (h3 : ThreeParts tok a b c) (d1 : b64Decode true a ≠ none) (d2 : b64Decode true b ≠ none) (d3 : b64Decode true c ≠ none) :
    decode env (some p) false false false s h = .error .oobRead ∧ decodeRaw env (some p) false {} s h = .error .oobRead := by
  obtain ⟨d, d3⟩ := Option.ne_none_iff_exists'.mp d3
  refine decode_ub hv ht g ha h3 d1 d2 d3 ?_
  obtain ⟨mem, hm, hk1, hk2⟩ := validate_verKey hv
  have hkr := hr mem hm
  have hkk : verKey p = mem.take p.verificationKeyLength := by simp [verKey, hm]
  unfold verifyBody
  rw [hm, loadKey_eq _ _ hk1 hk2 hkr, ← hkk]
  simp only [bind, Except.bind]
  unfold loadCrt
  rw [strstr_key_oob _ _ _ (by rw [hl]; exact Nat.le_refl _) h0]
  rfl

/-- The hypotheses are met: a key of 8192 times the letter A. -/
example : ∃ p, validateDecodingParams toy (some p) = L8W8JWT_SUCCESS ∧ VerKeyReadable p ∧ (verKey p).length = 8192 ∧ 0 ∉ verKey p := by
  have hk : ∀ q : DecParams, verKey { q with verificationKey := some (List.replicate 8192 65), verificationKeyLength := 8192 } =
      List.replicate 8192 65 := by
    intro q
    unfold verKey
    simp only [Option.getD_some]
    exact List.take_of_length_le (by rw [List.length_replicate]; exact Nat.le_refl _)
  refine ⟨{ toyDec (mkTok hdr1 pay1 [1]) with verificationKey := some (List.replicate 8192 65), verificationKeyLength := 8192 },
    by decide +kernel, fun mem hm => ?_, ?_, ?_⟩
  · cases hm; rw [List.length_replicate]; exact Nat.le_refl _
  · rw [hk, List.length_replicate]
  · rw [hk]
    intro hx
    have := List.eq_of_mem_replicate hx
    cases this

/-! ## C49 -/

/-- The heap afterwards: what was there before and the blocks `l`. -/
theorem Mem.live {m : List Nat} (o : Mem h h' m []) : h'.live.Perm (m ++ h.live) := by
  obtain ⟨l, o, p⟩ := o
  rw [List.append_nil] at p
  rw [o.live]
  exact p.append_right _

theorem Mem.live' {m leak : List Nat} (o : Mem h h' m leak) : h'.live.Perm (m ++ leak ++ h.live) := by
  obtain ⟨l, o, p⟩ := o
  rw [o.live]
  exact p.append_right _

/-- C49: if no growing of the claims buffer fails or is necessary (it has room for 16 claims), everything allocated by `l8w8jwt_decode` is freed (exactly once: freeing a block
that is not live is undefined behaviour in the model), except the claims handed out. `LeakyToken`: header or payload has more
than 64 items and braces or brackets that do not match. Missing for the full statement: those tokens, and failures to grow the claims
buffer, for which it is false (`C49_leak_false`, `C49_grow_leak_false`). -/
theorem C49_no_leak_partial (hc : CryptoOk env.crypto) (ht : TokenMem p tok) (g : s.noGrowFail ∨ FewClaims env tok) (hl : ¬ LeakyToken tok) {a b c : Bool}
    {r : DecOut} (he : decode env (some p) a b c s h = .ok (r, h')) : h'.live.Perm (outIds r ++ h.live) := by
  rcases decode_returns he with ⟨hr, -, rfl, -⟩ | ⟨p1, st, g2, hp, ha, hb, hv, -, -⟩
  · rw [hr]; exact List.Perm.refl _
  · cases hp
    subst ha
    have := wp_iff_forall.mp (wp_decode (s := s) (h := h) hc hv ht b c hb (fun _ => True) (Or.inr (fun _ => trivial))) r h' he
    obtain ⟨-, leak, hm, hk⟩ := this
    rcases hk.none (roomFor_few g) with rfl | hk
    · exact hm.live
    · exact absurd (leakyToken_iff.mp hk) hl

/-- C49: the same for `l8w8jwt_decode_raw`, which hands out the segments. -/
theorem C49_raw_no_leak_partial (hc : CryptoOk env.crypto) (ht : TokenMem p tok) (g : s.noGrowFail ∨ FewClaims env tok) (hl : ¬ LeakyToken tok) {a : Bool}
    {x : RawArgs} {r : RawOut} (he : decodeRaw env (some p) a x s h = .ok (r, h')) : h'.live.Perm (rawIds r ++ h.live) := by
  rcases decodeRaw_returns he with ⟨hr, -, rfl, -⟩ | ⟨p1, st, g2, hp, ha, hb, hv, -, -⟩
  · rw [hr]; exact List.Perm.refl _
  · cases hp
    subst ha
    have := wp_iff_forall.mp (wp_decodeRaw (s := s) (h := h) hc hv ht x hb (fun _ => True) (Or.inr (fun _ => trivial))) r h' he
    obtain ⟨-, leak, hm, hk⟩ := this
    rcases hk.none (roomFor_few g) with rfl | hk
    · exact hm.live
    · exact absurd (leakyToken_iff.mp hk) hl

/-- C49: `l8w8jwt_decode_raw_no_validation` never leaks, whatever the token and the allocation failures. -/
theorem C49_raw_nv_no_leak (ht : TokenMem p tok) {x : RawArgs} {r : RawOut}
    (he : decodeRawNoValidation env (some p) x s h = .ok (r, h')) : h'.live.Perm (rawIds r ++ h.live) := by
  by_cases h1 : ((x.header && x.payload && x.signature) || x.bad) = true
  · simp only [decodeRawNoValidation, if_pos h1] at he
    cases he; exact List.Perm.refl _
  · by_cases hv : validateDecodingParams env (some p) = L8W8JWT_SUCCESS
    · simp only [Bool.or_eq_true, not_or, Bool.not_eq_true] at h1
      exact (wp_iff_forall.mp (wp_decodeRawNv (s := s) (h := h) hv ht x h1.2 h1.1 (fun _ => True)) r h' he).2.live
    · simp only [decodeRawNoValidation, if_neg h1, ne_eq, hv, not_false_eq_true, if_true] at he
      cases he; exact List.Perm.refl _

/-- C49: `l8w8jwt_free_claims` on the claims handed out is defined, and afterwards the heap is as before the call of
`l8w8jwt_decode`. Missing for the full statement: as in `C49_no_leak_partial`. -/
theorem C49_free_claims_partial (hc : CryptoOk env.crypto) (ht : TokenMem p tok) (g : s.noGrowFail ∨ FewClaims env tok) (hl : ¬ LeakyToken tok) {a b c : Bool}
    {r : DecOut} {arr : ClaimArr} (he : decode env (some p) a b c s h = .ok (r, h')) (hr : r.claims = some arr) :
    r.claimsLength = some arr.items.length ∧
    ∃ h2, freeClaims arr arr.items.length s h' = .ok ((), h2) ∧ h2.live.Perm h.live := by
  rcases decode_returns he with ⟨hr', -, rfl, -⟩ | ⟨p1, st, g2, hp, ha, hb, hv, -, -⟩
  · rw [hr'] at hr; cases hr
  · cases hp
    subst ha
    have := wp_iff_forall.mp (wp_decode (s := s) (h := h) hc hv ht b c hb (fun _ => True) (Or.inr (fun _ => trivial))) r h' he
    obtain ⟨⟨st, ho, ⟨ds, hvw⟩, rfl⟩, leak, hm, hk⟩ := this
    have hk : leak = [] := by
      rcases hk.none (roomFor_few g) with hk | hk
      · exact hk
      · exact absurd (leakyToken_iff.mp hk) hl
    subst hk
    by_cases hcond : (b || decide (st.rc ≠ L8W8JWT_SUCCESS)) = true
    · rw [decOut, if_pos hcond] at hr; cases hr
    · have ed : decOut b st = DecOut.mk st.rc (some st.validation) (some st.claims) (some st.claims.items.length) := by rw [decOut, if_neg hcond]
      rw [ed] at hr hm ⊢
      cases hr
      refine ⟨rfl, ?_⟩
      have hm' : Mem h h' (claimIds st.claims.items ++ (st.claims.blk.ids ++ [])) [] := by simpa [outIds, arrIds] using hm
      obtain ⟨u, h2, e2, m2⟩ := wp_iff_exists.mp (wp_freeClaims (s := s) hvw ho.blk (fun _ => False) hm')
      exact ⟨h2, e2, by simpa using m2.live⟩

/-- A header of 65 JSON tokens (an array that is not closed). -/
def leakJson : Bytes := 91 :: (List.replicate 64 [49, 44]).flatten

/-- The number of live blocks after decoding and the return code. -/
def liveAfter (p : DecParams) (s : Sched) : Option (Nat × Nat × Option Nat) :=
  match decode toy (some p) false false false s heap0 with
  | .ok (r, h) => some (r.rc, h.live.length, r.claims.map fun (a : ClaimArr) => a.items.length)
  | .error _ => none

/-- C49 is false: a token whose header has more than 64 JSON tokens and an unclosed bracket makes the decoder leak the token
array, without any allocation failure and without a valid signature. -/
theorem C49_leak_false : ∃ p tok, TokenMem p tok ∧ validateDecodingParams toy (some p) = L8W8JWT_SUCCESS ∧
    liveAfter p calm = some (L8W8JWT_DECODE_FAILED_INVALID_TOKEN_FORMAT, 1, none) := by
  have h0 : (0 : UInt8) ∉ mkTokB leakJson (str pay1) (List.replicate 32 65) := by decide +kernel
  have hl : (mkTokB leakJson (str pay1) (List.replicate 32 65)).length < 2 ^ 63 := by decide +kernel
  exact ⟨toyDec (mkTokB leakJson (str pay1) (List.replicate 32 65)), _, toyDec_mem _ 0 h0 hl, by decide +kernel, by decide +kernel⟩

/-- The checks of the arguments do not report a bad token. -/
theorem validate_code : validateDecodingParams env (some p) ≠ L8W8JWT_DECODE_FAILED_INVALID_TOKEN_FORMAT := by
  unfold validateDecodingParams
  simp only
  split
  · decide
  · split
    · decide
    · split <;> decide

theorem decode_early {a b c : Bool} {r : DecOut} (he : decode env (some p) a b c s h = .ok (r, h'))
    (hx : validateDecodingParams env (some p) ≠ L8W8JWT_SUCCESS ∨ a = true ∨ (b = false ∧ c = true)) :
    r.rc ≠ L8W8JWT_DECODE_FAILED_INVALID_TOKEN_FORMAT := by
  unfold decode at he
  simp only at he
  by_cases h1 : (!b && c) = true
  · rw [if_pos h1] at he; cases he; decide
  rw [if_neg h1] at he
  by_cases hv : validateDecodingParams env (some p) ≠ L8W8JWT_SUCCESS
  · rw [if_pos hv] at he; cases he; exact validate_code
  rw [if_neg hv] at he
  rcases hx with hx | rfl | ⟨rfl, rfl⟩
  · exact absurd hx hv
  · simp only [if_true] at he; cases he; decide
  · exact absurd rfl h1

/-- What `l8w8jwt_decode` leaks, exactly. -/
theorem decode_leak (hc : CryptoOk env.crypto) (ht : TokenMem p tok) (g : s.good) {a b c : Bool} {r : DecOut}
    (he : decode env (some p) a b c s h = .ok (r, h')) :
    ∃ leak, h'.live.Perm (outIds r ++ leak ++ h.live) ∧ (LeakEnd env tok r.rc → leak.length = 1) ∧ (¬ LeakEnd env tok r.rc → leak = []) ∧
      (r.rc ≠ L8W8JWT_SUCCESS → outIds r = []) := by
  rcases decode_returns he with ⟨hr, -, rfl, hx⟩ | ⟨p1, st, g2, hp, ha, hb, hv, -, ho⟩
  · have hn := decode_early he hx
    rw [hr]
    exact ⟨[], List.Perm.refl _, fun hl => absurd hl.1 hn, fun _ => rfl, fun _ => rfl⟩
  · cases hp
    subst ha
    have := wp_iff_forall.mp (wp_decode (s := s) (h := h) hc hv ht b c hb (fun _ => True) (Or.inr (fun _ => trivial))) r h' he
    obtain ⟨-, leak, hm, hk⟩ := this
    refine ⟨leak, hm.live', hk.one g, hk.clean g, fun hn => ?_⟩
    rw [ho] at hn ⊢
    unfold decOut at hn ⊢
    by_cases hcond : (b || decide (st.rc ≠ L8W8JWT_SUCCESS)) = true
    · rw [if_pos hcond]; rfl
    · rw [if_neg hcond] at hn
      simp only [Bool.or_eq_true, not_or, decide_eq_true_eq] at hcond
      exact absurd hn hcond.2

theorem one_block {l : List Nat} (h : l.length = 1) : ∃ i, l = [i] := by
  match l, h with
  | [i], _ => exact ⟨i, rfl⟩

/-- C49 is false for every token whose header has more than 64 items and braces or brackets that do not match: whenever
`l8w8jwt_decode` gets as far as parsing the header and returns (no allocation fails), it leaks exactly one block. -/
theorem C49_leak_header_false (hc : CryptoOk env.crypto) (ht : TokenMem p tok) (g : s.good) {x y : Bytes} (hp : Parts tok x y)
    (hl : Leaky (readText x)) {a b c : Bool} {r : DecOut} (he : decode env (some p) a b c s h = .ok (r, h'))
    (hr : r.rc = L8W8JWT_DECODE_FAILED_INVALID_TOKEN_FORMAT) : ∃ i, h'.live.Perm (i :: h.live) := by
  obtain ⟨leak, hm, h1, -, h3⟩ := decode_leak hc ht g he
  obtain ⟨i, rfl⟩ := one_block (h1 ⟨hr, x, y, hp, Or.inl (leaky_iff.mpr hl)⟩)
  rw [h3 (by rw [hr]; decide)] at hm
  exact ⟨i, hm⟩

/-- C49 is false for every token whose payload is such a text, if the header is parsed successfully. -/
theorem C49_leak_payload_false (hc : CryptoOk env.crypto) (ht : TokenMem p tok) (g : s.good) {x y : Bytes} (hp : Parts tok x y)
    {ds : List DClaim} {n : Nat} {w : Behind} (hx : Parsed env.checknum (readText x) true ds n w) (hw : w.Fits n)
    (hl : Leaky (readText y)) {a b c : Bool} {r : DecOut} (he : decode env (some p) a b c s h = .ok (r, h'))
    (hr : r.rc = L8W8JWT_DECODE_FAILED_INVALID_TOKEN_FORMAT) : ∃ i, h'.live.Perm (i :: h.live) := by
  obtain ⟨leak, hm, h1, -, h3⟩ := decode_leak hc ht g he
  obtain ⟨vend, -, e⟩ := claimsIn_parsed hx
  rw [fits_look hw] at e
  obtain ⟨i, rfl⟩ := one_block (h1 ⟨hr, x, y, hp, Or.inr ⟨⟨ds, e⟩, leaky_iff.mpr hl⟩⟩)
  rw [h3 (by rw [hr]; decide)] at hm
  exact ⟨i, hm⟩

/-- C49: this is the only leak without failures: if no allocation fails, either nothing is leaked, or one block is, the token is
leaky, and the return code is the one for a bad token. -/
theorem C49_leak_only (hc : CryptoOk env.crypto) (ht : TokenMem p tok) (g : s.good) {a b c : Bool} {r : DecOut}
    (he : decode env (some p) a b c s h = .ok (r, h')) :
    h'.live.Perm (outIds r ++ h.live) ∨
    (r.rc = L8W8JWT_DECODE_FAILED_INVALID_TOKEN_FORMAT ∧ LeakyToken tok ∧ ∃ i, h'.live.Perm (i :: h.live)) := by
  obtain ⟨leak, hm, h1, h2, h3⟩ := decode_leak hc ht g he
  by_cases hx : LeakEnd env tok r.rc
  · right
    obtain ⟨i, rfl⟩ := one_block (h1 hx)
    obtain ⟨hr, x, y, hp, hl⟩ := hx
    rw [h3 (by rw [hr]; decide)] at hm
    refine ⟨hr, leakyToken_iff.mp ⟨x, y, hp, hl.imp id And.right⟩, i, hm⟩
  · left
    rw [h2 hx, List.append_nil] at hm
    exact hm

/-- The header of `C49_leak_false` is such a text. -/
example : Leaky (readText (b64 true leakJson)) := by
  rw [readText, ← leaky_iff, jsonOf, b64Decode_b64 (by decide +kernel), Option.getD_some]
  exact ⟨65, .part, by decide +kernel, by decide, by decide +kernel⟩

/-- A payload with 16 claims. -/
def pay16 : Bytes := str "{" ++ commaSep ((List.range 16).map fun i => str "\"" ++ [UInt8.ofNat (97 + i)] ++ str "\":1") ++ str "}"

/-- C49 is false: if a claim cannot be appended to the claims buffer, its key and value are leaked, and decoding reports success
with the claim missing. Here the token has 17 claims, of which 16 are handed out; 35 blocks are live, two of them key and value of the
claim that is missing. -/
theorem C49_grow_leak_false : ∃ p tok, TokenMem p tok ∧ validateDecodingParams toy (some p) = L8W8JWT_SUCCESS ∧
    liveAfter p growFail = some (L8W8JWT_SUCCESS, 35, some 16) ∧ liveAfter p calm = some (L8W8JWT_SUCCESS, 35, some 17) := by
  have h0 : (0 : UInt8) ∉ mkTokB (str hdr1) pay16 (List.replicate 32 65) := by decide +kernel
  have hl : (mkTokB (str hdr1) pay16 (List.replicate 32 65)).length < 2 ^ 63 := by decide +kernel
  exact ⟨toyDec (mkTokB (str hdr1) pay16 (List.replicate 32 65)), _, toyDec_mem _ 0 h0 hl, by decide +kernel, by decide +kernel, by decide +kernel⟩

/-- With few claims every growing may fail. -/
example : liveAfter (toyDec (mkTok hdr1 pay1 (toyMac hdr1 pay1))) growFail = some (L8W8JWT_SUCCESS, 5, some 2) := by decide +kernel

/-- Without failures: two claims and their array are handed out. -/
example : liveAfter (toyDec (mkTok hdr1 pay1 (toyMac hdr1 pay1))) calm = some (L8W8JWT_SUCCESS, 5, some 2) ∧
    ¬ LeakyToken (mkTok hdr1 pay1 (toyMac hdr1 pay1)) := by
  refine ⟨by decide +kernel, ?_⟩
  rw [← leakyToken_iff]
  have h3' : ThreeParts (mkTok hdr1 pay1 (toyMac hdr1 pay1)) (b64 true (str hdr1)) (b64 true (str pay1)) (b64 true (toyMac hdr1 pay1)) :=
    ⟨rfl, dot_not_mem_b64 _, dot_not_mem_b64 _⟩
  rintro ⟨a, b, hp, hk⟩
  rcases hp with hp | ⟨c, hp⟩
  · exact two_not_three hp h3'
  · obtain ⟨rfl, rfl, rfl⟩ := three_unique hp h3'
    simp only [jsonOf] at hk
    rw [b64Decode_b64 (by decide), b64Decode_b64 (by decide)] at hk
    have e1 : jsmnCount (str hdr1) = .ok 3 := by decide +kernel
    have e2 : jsmnCount (str pay1) = .ok 3 := by decide +kernel
    rcases hk with ⟨n, -, hn, h64, -⟩ | ⟨n, -, hn, h64, -⟩
    · rw [Option.getD_some, e1] at hn; cases hn; exact absurd h64 (by decide)
    · rw [Option.getD_some, e2] at hn; cases hn; exact absurd h64 (by decide)

/-! ## C50 (decoder) -/

/-- A key text denotes at most one public key. -/
theorem publicKey_unique {c : Crypto} {k : Bytes} {pk pk' : c.PK} (h : PublicKey c k pk) (h' : PublicKey c k pk') : pk = pk' := by
  by_cases hc : contains (str "-----BEGIN CERTIFICATE-----") (cString k)
  · have := (h.1 hc).symm.trans (h'.1 hc); cases this; rfl
  · have := (h.2 hc).symm.trans (h'.2 hc); cases this; rfl

theorem octetsValue_be (n x : Nat) (hx : x < 256 ^ n) : octetsValue (be n x) = x := C50_be_value n x hx

/-- C50: from the fixed-width representation the decoder recovers exactly the two numbers. -/
theorem C50_recover (n x y : Nat) (hx : x < 256 ^ n) (hy : y < 256 ^ n) :
    octetsValue ((be n x ++ be n y).take ((be n x ++ be n y).length / 2)) = x ∧
    octetsValue (((be n x ++ be n y).drop ((be n x ++ be n y).length / 2)).take ((be n x ++ be n y).length / 2)) = y := by
  have hl : (be n x ++ be n y).length / 2 = n := by rw [List.length_append, be_length, be_length]; omega
  have e1 : (be n x ++ be n y).take n = be n x := by rw [List.take_append_of_le_length (by rw [be_length]; exact Nat.le_refl _), List.take_of_length_le (by rw [be_length]; exact Nat.le_refl _)]
  have e2 : (be n x ++ be n y).drop n = be n y := by rw [List.drop_append_of_le_length (by rw [be_length]; exact Nat.le_refl _), List.drop_of_length_le (by rw [be_length]; exact Nat.le_refl _), List.nil_append]
  rw [hl, e1, e2, List.take_of_length_le (by rw [be_length]; exact Nat.le_refl _)]
  exact ⟨octetsValue_be n x hx, octetsValue_be n y hy⟩

/-- C50: what `l8w8jwt_verify_signature` does with a signature consisting of the fixed-width representation of `x` and `y`: the
curve equation is checked for exactly `x` and `y`. -/
theorem C50_decoder (hc : CryptoOk env.crypto) (hv : validateDecodingParams env (some p) = L8W8JWT_SUCCESS) (name : String) (md : Md) (cv : Curve)
    (n bits x y : Nat) (ha : alg? p.alg = some (name, .ecdsa md cv n bits)) {a b c : Bytes} (ht : TokenMem p tok)
    (h3 : ThreeParts tok a b c) (hd : b64Decode true c = some (be n x ++ be n y)) (hx : x < 256 ^ n) (hy : y < 256 ^ n)
    (hr : VerKeyReadable p) (hf : (verKey p).length < 8192 ∨ (verKey p).getLast? = some 0) {pk : env.crypto.PK}
    (hpk : PublicKey env.crypto (verKey p) pk) (hec : env.crypto.isEc pk = true) (hok : env.crypto.ecOk pk = true) {hash : Bytes}
    (hh : env.crypto.md md (a ++ 46 :: b) = some hash) :
    verifyBody env p (segBuf c) (be n x ++ be n y).length = .ok (.ok true) ↔ env.crypto.ecdsaVerify pk hash x y = true := by
  have hvs : VerSafe env p c := by
    refine ⟨hf, fun name md hm => ?_, fun name md pk hm hk => ?_, fun name' md' cv' n' b' pk' hm hk => ?_, fun name hm => ?_⟩
    · rw [ha] at hm; cases hm
    · rw [ha] at hm; cases hm
    · rw [publicKey_unique hk hpk]; exact hec
    · rw [ha] at hm; cases hm
  have hval := C50_recover n x y hx hy
  have hver : Verifies env p.alg (verKey p) (a ++ 46 :: b) c ↔ env.crypto.ecdsaVerify pk hash x y = true := by
    unfold Verifies
    rw [ha]
    simp only
    constructor
    · rintro ⟨-, sig, hsig, pk', hash', hk', hh', -, hve⟩
      rw [hd] at hsig; cases hsig
      rw [hh] at hh'; cases hh'
      rw [publicKey_unique hk' hpk, hval.1, hval.2] at hve
      exact hve
    · intro hve
      refine ⟨fun hcn => by rw [hpk.1 hcn]; rfl, _, hd, pk, hash, hpk, hh, hok, ?_⟩
      rw [hval.1, hval.2]; exact hve
  obtain ⟨r, e, hpost⟩ := rwp_iff_exists.mp (verifyBody_post hc hv ht h3 hd (fun _ => False) (Or.inl ⟨hr, hvs.defined hd _⟩))
  rw [e]
  have hsome : (alg? p.alg).isSome = true := by rw [ha]; rfl
  cases r with
  | error rc =>
    have := fun hx => verFails_not (text := c) hpost (hver.mpr hx)
    exact ⟨fun h => (nomatch h), fun h => absurd h this⟩
  | ok v =>
    cases v with
    | true => exact ⟨fun _ => hver.mp (hpost.2 hsome), fun _ => rfl⟩
    | false =>
      have := hpost.2.2
      rw [hver] at this
      exact ⟨fun h => (nomatch h), fun h => absurd h this⟩

/-- Encode with the toy crypto, then decode: return code and validation result. -/
def roundTrip (p : EncParams) (q : Bytes → DecParams) : Option (Nat × Option VRes) :=
  match tokenOf toy p with
  | some t => verdict (q t.dropLast)
  | none => none

/-- A token of the toy encoder with a P-256 key verifies. -/
example : roundTrip { toyParams with alg := 9, secretKey := some (str "P"), secretKeyLength := 1 }
    (fun tok => { toyDec tok 9 with verificationKey := some (str "P"), verificationKeyLength := 1 }) = some (0, some 0) := by
  decide +kernel

end L8w8jwt
