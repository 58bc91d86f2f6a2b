import Verif.Props.EncodeMore
/-!
# The encoder under memory shortage; key normalisation; fixed-width ECDSA signatures
-/

namespace L8w8jwt
open Spec

variable {s : Sched} {h h' : Heap} {env : Env} {p : EncParams} {r : EncOut}

/-! ## C26 -/

theorem emits_signed {msg sig : Bytes} (hs : Emits env p msg sig) : Signed env p msg sig := by
  obtain ⟨-, -, hs⟩ := hs
  unfold Signed
  split at hs
  · rename_i ha
    obtain ⟨pk, hash, full, e1, e2, e3, e4, -⟩ := hs
    rw [ha]
    exact ⟨pk, hash, full, e1, e2, e3, e4⟩
  · rename_i ha
    rw [ha]
    exact hs.2
  · rename_i h1 h2
    split
    · rename_i ha
      exact absurd ha (h1 _ _)
    · exact hs

/-- What an encoded token consists of if its buffers need not grow or can grow. -/
theorem encode_token_small (hc : CryptoOk env.crypto) (hok : TextsOk env p) (g : s.noGrowFail ∨ SmallToken env p)
    (he : encode env (some p) s h = .ok (r, h')) (hr : r.rc = L8W8JWT_SUCCESS) :
    ∃ name sch id tok hdr pay sig, alg? p.alg = some (name, sch) ∧ r.out = some (some ⟨id, tok ++ [0]⟩) ∧
      r.outLength = some tok.length ∧ IsToken tok hdr pay sig ∧
      ((hdr = writtenHeader p name ∨ hdr = str "{" ++ commaSep (headerBase name) ++ headerTail p []) ∧
        ((∀ k, s.failAlloc k = false) → hdr = writtenHeader p name)) ∧
      ((∃ l e, (l = registeredWith timeText p ∨ l = []) ∧ (e = extra p.payloadClaims p.payloadClaimsCount ∨ e = []) ∧
        pay = payloadForm p l e) ∧ ((∀ k, s.failAlloc k = false) → pay = writtenPayload p)) ∧
      Emits env p (signingInput hdr pay) sig := by
  by_cases hv : validateEncodingParams (some p) = L8W8JWT_SUCCESS
  · have := wp_iff_forall.mp (wp_encode_texts (s := s) (h := h) env hc p hok (fun _ => True) hv (Or.inr fun _ => trivial)) r h' he
    obtain ⟨-, hdr, pay, sig, tok, id, msg, ⟨name, sch, ha, hh⟩, hp, hs, n1, n2, n3, e1, e2, -, -, u1, u2⟩ := this.success hr
    have gh : s.noGrowFail ∨ (writtenHeader p name).length ≤ 256 := g.imp (fun x => x) (fun g => (g name sch ha).1)
    have gp : s.noGrowFail ∨ (writtenPayload p).length ≤ 256 := g.imp (fun x => x) (fun g => (g name sch ha).2.1)
    have l3 : hdr.length ≤ (writtenHeader p name).length := hh.1
    have l4 : pay.length ≤ (writtenPayload p).length := hp.1
    have l6 : (str ".").length = 1 := rfl
    have gt : s.noGrowFail ∨ (b64 true hdr).length + (b64 true pay).length + (b64 true sig).length + 2 ≤ 1024 := g.imp (fun x => x) (fun g => by
      have := (g name sch ha).2.2 msg sig _ (emits_signed hs) rfl
      simp only [List.length_append, l6, b64_length] at this ⊢
      omega)
    have hm := u1.2 (gt.imp (fun x => x) (fun g => by simp only [List.length_append, l6]; omega))
    have ht := u2.2 (gt.imp (fun x => x) (fun g => by rw [hm]; simp only [List.length_append, l6]; omega))
    subst hm
    refine ⟨name, sch, id, tok, hdr, pay, sig, ha, e1, e2, ht, hh.2 gh, hp.2 gp, hs⟩
  · rw [C16_encode_invalid _ hv] at he; cases he; exact absurd hr hv

/-- C26: if no block can be refused and no buffer has to grow in vain (growing never fails, or header, payload and token are so
short that none has to grow), a successful call yields the complete token: every header member, every registered and
every additional claim, and the whole signature. Missing for the full statement: all other runs, for
which it is false (`C26_intact_false`, `C26_payload_cut_false`, `C26_claims_dropped_false`). -/
theorem C26_intact_partial (hc : CryptoOk env.crypto) (hok : TextsOk env p) (hf : ∀ k, s.failAlloc k = false)
    (g : s.noGrowFail ∨ SmallToken env p) (he : encode env (some p) s h = .ok (r, h')) (hr : r.rc = L8W8JWT_SUCCESS) :
    ∃ name sch id tok sig, alg? p.alg = some (name, sch) ∧ r.out = some (some ⟨id, tok ++ [0]⟩) ∧ r.outLength = some tok.length ∧
      IsToken tok (writtenHeader p name) (writtenPayload p) sig ∧
      (¬ OddPss env p → Signs env p (signingInput (writtenHeader p name) (writtenPayload p)) sig) := by
  obtain ⟨name, sch, id, tok, hdr, pay, sig, ha, e1, e2, ht, hh, hp, hs⟩ := encode_token_small hc hok g he hr
  have e3 := hh.2 hf
  have e4 := hp.2 hf
  subst e3 e4
  exact ⟨name, sch, id, tok, sig, ha, e1, e2, ht, fun hn => emits_signs hs hn⟩

/-- C26, when allocations of new blocks may fail: the token is well formed and signed, and its header and payload
contain each group of claims (header claims, registered claims, additional payload claims) completely or not at all. -/
theorem C26_groups_partial (hc : CryptoOk env.crypto) (hok : TextsOk env p) (g : s.noGrowFail ∨ SmallToken env p)
    (he : encode env (some p) s h = .ok (r, h')) (hr : r.rc = L8W8JWT_SUCCESS) :
    ∃ name sch id tok hdr pay sig, alg? p.alg = some (name, sch) ∧ r.out = some (some ⟨id, tok ++ [0]⟩) ∧
      r.outLength = some tok.length ∧ IsToken tok hdr pay sig ∧
      (∃ e, (e = extra p.headerClaims p.headerClaimsCount ∨ e = []) ∧
        hdr = str "{" ++ commaSep (headerBase name) ++ headerTail p e) ∧
      (∃ l e, (l = registeredWith timeText p ∨ l = []) ∧ (e = extra p.payloadClaims p.payloadClaimsCount ∨ e = []) ∧
        pay = payloadForm p l e) ∧
      (¬ OddPss env p → Signs env p (signingInput hdr pay) sig) := by
  obtain ⟨name, sch, id, tok, hdr, pay, sig, ha, e1, e2, ht, hh, hp, hs⟩ := encode_token_small hc hok g he hr
  refine ⟨name, sch, id, tok, hdr, pay, sig, ha, e1, e2, ht, ?_, hp.1, fun hn => emits_signs hs hn⟩
  rcases hh.1 with e | e
  · exact ⟨_, Or.inl rfl, e⟩
  · exact ⟨_, Or.inr rfl, e⟩

/-- C26, under every schedule: what is handed out is a NUL-terminated buffer of the reported length, never longer than the
complete token. -/
theorem C26_length_partial (hc : CryptoOk env.crypto) (hok : TextsOk env p)
    (he : encode env (some p) s h = .ok (r, h')) (hr : r.rc = L8W8JWT_SUCCESS) :
    ∃ name sch id tok, alg? p.alg = some (name, sch) ∧ r.out = some (some ⟨id, tok ++ [0]⟩) ∧ r.outLength = some tok.length ∧
      tok.length ≤ (b64 true (writtenHeader p name)).length + (b64 true (writtenPayload p)).length + 5465 := by
  by_cases hv : validateEncodingParams (some p) = L8W8JWT_SUCCESS
  · have := wp_iff_forall.mp (wp_encode_texts (s := s) (h := h) env hc p hok (fun _ => True) hv (Or.inr fun _ => trivial)) r h' he
    obtain ⟨-, hdr, pay, sig, tok, id, msg, ⟨name, sch, ha, hh⟩, hp, hs, n1, n2, n3, e1, e2, -, -, u1, u2⟩ := this.success hr
    refine ⟨name, sch, id, tok, ha, e1, e2, ?_⟩
    have l1 := u1.1
    have l2 := u2.1
    have l3 : hdr.length ≤ (writtenHeader p name).length := hh.1
    have l4 : pay.length ≤ (writtenPayload p).length := hp.1
    have l5 := hs.2.1
    have l6 : (str ".").length = 1 := rfl
    simp only [List.length_append, l6, b64_length] at *
    omega
  · rw [C16_encode_invalid _ hv] at he; cases he; exact absurd hr hv

/-- Example parameters: issuer and expiry. -/
def oomParams : EncParams := { toyParams with iss := cs "x", issLength := 1, exp := 5 }

example : TextsOk toy oomParams := by
  refine ⟨?_, ?_, ?_, ?_, ?_, ?_⟩
  any_goals (intro b hb; cases hb)
  exact ⟨by simp [argOk, oomParams], fun _ => by decide⟩

/-- The text of a successfully encoded token under schedule `s`. -/
def tokenUnder (s : Sched) (p : EncParams) : Option Bytes :=
  match encode toy (some p) s heap0 with
  | .ok ({ rc := 0, out := some (some b), .. }, _) => some b.mem
  | _ => none

/-- Example parameters: an issuer of `n` letters. -/
def longIss (n : Nat) : EncParams := { toyParams with iss := some ⟨0, List.replicate n 120 ++ [0]⟩, issLength := n }

/-- Every growing of a buffer fails. -/
def growFail : Sched := { failAlloc := fun _ => false, failGrow := fun _ => some 0 }

/-- The toy parameters make a small token: it is complete although every growing fails. -/
example : SmallToken toy oomParams ∧ tokenUnder growFail oomParams = tokenUnder calm oomParams ∧ (tokenUnder calm oomParams).isSome := by
  refine ⟨fun name sch ha => ?_, by decide +kernel⟩
  have hx : alg? oomParams.alg = some ("HS256", .hmac .sha256) := rfl
  rw [hx] at ha
  cases ha
  refine ⟨by decide +kernel, by decide +kernel, fun msg sig tok hs ht => ?_⟩
  have hl : sig.length = 32 := by
    simp only [Signed, hx, Signs] at hs
    exact toyOk.hmac _ _ _ _ hs
  rw [ht]
  have h1 : (b64 true (writtenHeader oomParams "HS256")).length = 36 := by decide +kernel
  have h2 : (b64 true (writtenPayload oomParams)).length = 26 := by decide +kernel
  have h6 : (str ".").length = 1 := rfl
  simp only [List.length_append, h1, h2, h6, b64_length, hl]
  omega

/-- C26 is false: if growing the string builder fails (here, the first time it has to grow), success is reported for a token that
lacks its signature. -/
theorem C26_intact_false : ∃ s, (∀ k, s.failAlloc k = false) ∧ tokenUnder s (longIss 729) =
    some (b64 true (writtenHeader (longIss 729) "HS256") ++ str "." ++ b64 true (writtenPayload (longIss 729)) ++ str "." ++ [0]) :=
  ⟨{ failAlloc := fun _ => false, failGrow := fun k => if k = 752 then some 0 else none }, fun _ => rfl, by decide +kernel⟩

/-- C26 is false: if the payload has 257 bytes and its buffer cannot grow, success is reported for a signed token whose payload lacks
the closing brace. -/
theorem C26_payload_cut_false : ∃ sig, tokenUnder growFail (longIss 247) =
    some (b64 true (writtenHeader (longIss 247) "HS256") ++ str "." ++ b64 true (writtenPayload (longIss 247)).dropLast ++ str "." ++
      b64 true sig ++ [0]) ∧ sig.length = 32 ∧ (writtenPayload (longIss 247)).length = 257 :=
  ⟨toySum 32 (str "secret" ++ 1 :: signingInput (writtenHeader (longIss 247) "HS256") (writtenPayload (longIss 247)).dropLast),
    by decide +kernel, by decide +kernel, by decide +kernel⟩

/-- C26 is false also if growing never fails: if the escape buffer for the registered claims cannot be allocated, all of them
(issuer and expiry here) are silently left out, and the token is signed. -/
theorem C26_claims_dropped_false : ∃ s, (∀ k, s.failGrow k = none) ∧ tokenUnder s oomParams = tokenUnder calm toyParams ∧
    tokenUnder calm oomParams ≠ tokenUnder calm toyParams ∧ (tokenUnder calm toyParams).isSome :=
  ⟨{ failAlloc := fun k => k == 7, failGrow := fun _ => none }, fun _ => rfl, by decide +kernel⟩

/-! ## C39 (encoder) -/

/-- The code depends on the key only through what `loadKey` makes of it, EdDSA aside. -/
theorem encode_key_congr (a b : Option Bytes) (m n : Nat) (hk : loadKey a m = loadKey b n) (h13 : p.alg ≠ 13)
    (hv : validateEncodingParams (some { p with secretKey := a, secretKeyLength := m }) =
      validateEncodingParams (some { p with secretKey := b, secretKeyLength := n })) :
    encode env (some { p with secretKey := a, secretKeyLength := m }) =
      encode env (some { p with secretKey := b, secretKeyLength := n }) := by
  have h13' : ¬ p.alg = L8W8JWT_ALG_ED25519 := h13
  have hs : ∀ key kl msg, signSwitch env { p with secretKey := a, secretKeyLength := m } key kl msg =
      signSwitch env { p with secretKey := b, secretKeyLength := n } key kl msg := by
    intro key kl msg
    simp only [signSwitch, if_neg h13']
  have hb : ∀ sb, writeSignatureBody env sb { p with secretKey := a, secretKeyLength := m } =
      writeSignatureBody env sb { p with secretKey := b, secretKeyLength := n } := by
    intro sb
    simp only [writeSignatureBody, hk, hs]
  have hw : ∀ sb, writeSignature env sb { p with secretKey := a, secretKeyLength := m } =
      writeSignature env sb { p with secretKey := b, secretKeyLength := n } := by
    intro sb
    simp only [writeSignature, hb]
  have hbody : encodeBody env { p with secretKey := a, secretKeyLength := m } =
      encodeBody env { p with secretKey := b, secretKeyLength := n } := by
    have hh : writeHeaderAndPayload env [] { p with secretKey := a, secretKeyLength := m } =
      writeHeaderAndPayload env [] { p with secretKey := b, secretKeyLength := n } := rfl
    simp only [encodeBody, hh, hw]
  simp only [encode, hv, hbody]

/-- With or without its terminating NUL, a key is loaded the same way. -/
theorem loadKey_nul (k : Bytes) (h0 : k ≠ []) (hl : k.length ≤ 8191) (hn : k.getLast? ≠ some 0) (junk : Bytes) :
    loadKey (some (k ++ junk)) k.length = loadKey (some (k ++ [0])) (k.length + 1) := by
  have hp : 1 ≤ k.length := by cases k with | nil => exact absurd rfl h0 | cons a t => simp
  have hm : L8W8JWT_MAX_KEY_SIZE = 8192 := rfl
  rw [loadKey_eq _ _ hp (by omega) (by simp), loadKey_eq _ _ (by omega) (by omega) (by simp)]
  rw [List.take_left, show k.length + 1 = (k ++ [0]).length by simp, List.take_length]
  rw [if_neg hn, if_pos (by simp)]
  have : padTo L8W8JWT_MAX_KEY_SIZE k = padTo L8W8JWT_MAX_KEY_SIZE (k ++ [0]) := by
    simp only [padTo, List.length_append, List.length_singleton, List.append_assoc]
    congr 1
    have : L8W8JWT_MAX_KEY_SIZE - k.length = (L8W8JWT_MAX_KEY_SIZE - (k.length + 1)) + 1 := by omega
    rw [this, List.replicate_succ]
    rfl
  rw [this]

/-- C39: for every algorithm except EdDSA, `l8w8jwt_encode` does exactly the same for a key given with its terminating NUL
counted (`k.length + 1`) and not counted (`k.length`, whatever follows the key in memory). -/
theorem C39_encode_nul (k junk : Bytes) (h0 : k ≠ []) (hl : k.length ≤ 8191) (hn : k.getLast? ≠ some 0) (h13 : p.alg ≠ 13) :
    encode env (some { p with secretKey := some (k ++ junk), secretKeyLength := k.length }) =
      encode env (some { p with secretKey := some (k ++ [0]), secretKeyLength := k.length + 1 }) := by
  refine encode_key_congr _ _ _ _ (loadKey_nul k h0 hl hn junk) h13 ?_
  have hp : k.length ≠ 0 := by cases k with | nil => exact absurd rfl h0 | cons a t => simp
  have hm : L8W8JWT_MAX_KEY_SIZE = 8192 := rfl
  have h1 : ¬ 8192 < k.length := by omega
  have h2 : ¬ 8192 < k.length + 1 := by omega
  simp [validateEncodingParams, hm, hp, h1, h2]

example : tokenOf toy toyParams = tokenOf toy { toyParams with secretKeyLength := 7 } ∧ (tokenOf toy toyParams).isSome := by
  decide +kernel

/-- C39: for HS256/384/512 the signature is the HMAC under the key without its terminating NUL. -/
theorem C39_hmac_key (hc : CryptoOk env.crypto) (hok : TextsOk env p) (g : s.noGrowFail) (name : String) (md : Md)
    (ha : alg? p.alg = some (name, .hmac md))
    (he : encode env (some p) s h = .ok (r, h')) (hr : r.rc = L8W8JWT_SUCCESS) :
    ∃ id tok hdr pay sig, r.out = some (some ⟨id, tok ++ [0]⟩) ∧ IsToken tok hdr pay sig ∧
      env.crypto.hmac md (hmacKey (keyBytes p)) (signingInput hdr pay) = some sig := by
  obtain ⟨name', sch, id, tok, hdr, pay, sig, ha', e1, -, ht, -, -, hs⟩ := encode_token hc hok g he hr
  refine ⟨id, tok, hdr, pay, sig, e1, ht, ?_⟩
  have := hs.2.2
  simp only [ha, Signs] at this
  exact this

/-! ## C50 (encoder) -/

/-- C50: an ECDSA signature is emitted as the two numbers in fixed width, `2 * n` octets in total. -/
theorem C50_ecdsa_width (hc : CryptoOk env.crypto) (hok : TextsOk env p) (g : s.noGrowFail) (name : String) (md : Md) (curve : Curve)
    (n bits : Nat) (ha : alg? p.alg = some (name, .ecdsa md curve n bits))
    (he : encode env (some p) s h = .ok (r, h')) (hr : r.rc = L8W8JWT_SUCCESS) :
    ∃ id tok hdr pay sig pk hash x y, r.out = some (some ⟨id, tok ++ [0]⟩) ∧ IsToken tok hdr pay sig ∧
      env.crypto.parseKey (pemKey (keyBytes p)) (password p) = some pk ∧
      env.crypto.md md (signingInput hdr pay) = some hash ∧ env.crypto.ecdsaSign pk hash = some (x, y) ∧
      x < 256 ^ n ∧ y < 256 ^ n ∧ sig = be n x ++ be n y ∧ sig.length = 2 * n := by
  obtain ⟨name', sch, id, tok, hdr, pay, sig, ha', e1, -, ht, -, -, hs⟩ := encode_token hc hok g he hr
  have := hs.2.2
  simp only [ha, Signs] at this
  obtain ⟨pk, hash, x, y, a1, a2, a3, a4, a5, a6⟩ := this
  exact ⟨id, tok, hdr, pay, sig, pk, hash, x, y, e1, ht, a1, a2, a3, a4, a5, a6, by rw [a6]; simp [be_length]; omega⟩

/-- The widths: 64, 96, 132 and 64 octets. -/
theorem C50_widths : (List.map (fun a => match alg? a with | some (_, .ecdsa _ _ n _) => 2 * n | _ => 0) [9, 10, 11, 12]) =
    [64, 96, 132, 64] := by decide +kernel

/-- The value of a big-endian octet string. -/
def beValue (b : Bytes) : Nat := b.foldl (fun a c => a * 256 + c.toNat) 0

/-- C50: the fixed-width representation determines the number. -/
theorem C50_be_value (n x : Nat) (hx : x < 256 ^ n) : beValue (be n x) = x := by
  induction n generalizing x with
  | zero => simp at hx; simp [be, beValue, hx]
  | succ n ih =>
    have h1 : x / 256 < 256 ^ n := by rw [Nat.div_lt_iff_lt_mul (by decide)]; rw [Nat.pow_succ] at hx; exact hx
    have := ih _ h1
    simp only [beValue, be, List.foldl_append, List.foldl_cons, List.foldl_nil] at *
    rw [this, UInt8.toNat_ofNat']
    omega

example : (tokenOf toy { toyParams with alg := 9, secretKey := some (str "P"), secretKeyLength := 1 }).isSome ∧
    (tokenOf toy { toyParams with alg := 11, secretKey := some (str "Q"), secretKeyLength := 1 }).isSome := by decide +kernel

end L8w8jwt
