import Verif.Props.EncodeDefined
import Verif.Props.Answer
/-!
# Properties C65 and C66: everything encoding returns
-/

namespace L8w8jwt
open Spec

variable {s : Sched} {h h' : Heap} {env : Env} {p : EncParams}

theorem signed_of_emits {msg sig : Bytes} (hs : Emits env p msg sig) : Signed env p msg sig := by
  obtain ⟨-, -, hs⟩ := hs
  unfold Signed
  split at hs
  · rename_i ha
    obtain ⟨pk, hash, full, h1, h2, h3, h4, -⟩ := hs
    rw [ha]
    exact ⟨pk, hash, full, h1, h2, h3, h4⟩
  · rename_i ha
    rw [ha]
    exact hs.2
  · rename_i h1 h2
    split
    · rename_i ha; exact absurd ha (h1 _ _)
    · exact hs

theorem signed_unique {msg sig sig' : Bytes} (h : Signed env p msg sig) (h' : Signed env p msg sig') : sig = sig' := by
  unfold Signed Signs at h h'
  cases ha : alg? p.alg with
  | none => rw [ha] at h; exact h.elim
  | some x =>
    obtain ⟨name, sch⟩ := x
    rw [ha] at h h'
    cases sch with
    | hmac md => simp only at h h'; rw [h] at h'; exact Option.some.inj h'
    | rsa md =>
      obtain ⟨pk, hash, h1, h2, h3⟩ := h
      obtain ⟨pk', hash', h1', h2', h3'⟩ := h'
      rw [h1] at h1'; cases h1'; rw [h2] at h2'; cases h2'; rw [h3] at h3'; exact Option.some.inj h3'
    | pss md =>
      obtain ⟨pk, hash, full, h1, h2, h3, rfl⟩ := h
      obtain ⟨pk', hash', full', h1', h2', h3', rfl⟩ := h'
      rw [h1] at h1'; cases h1'; rw [h2] at h2'; cases h2'; rw [h3] at h3'; cases h3'; rfl
    | ecdsa md cv n b =>
      obtain ⟨pk, hash, r, t, h1, h2, h3, -, -, rfl⟩ := h
      obtain ⟨pk', hash', r', t', h1', h2', h3', -, -, rfl⟩ := h'
      rw [h1] at h1'; cases h1'; rw [h2] at h2'; cases h2'; rw [h3] at h3'; cases h3'; rfl
    | eddsa => simp only at h h'; rw [h, h']

/-- What does not fail has a result. -/
theorem signed_exists {msg : Bytes} (ha : (alg? p.alg).isSome) (hf : ∀ rc, ¬ SignFails env p msg rc) : ∃ sig, Signed env p msg sig := by
  obtain ⟨⟨name, sch⟩, ha⟩ := Option.isSome_iff_exists.mp ha
  have hseed : env.crypto.seedOk = true := by
    cases hx : env.crypto.seedOk with
    | true => rfl
    | false => exact absurd (.seed hx) (hf _)
  have hpem : ∀ md, sch.prehash = some md → ∃ pk hash, env.crypto.parseKey (pemKey (keyBytes p)) (password p) = some pk ∧
      env.crypto.md md msg = some hash ∧ sch.Signable env.crypto pk hash := by
    intro md hm
    have hq : ∀ rc, ¬ PemFails env.crypto sch (pemKey (keyBytes p)) (password p) msg rc := fun rc hx => hf _ (.pem hseed ha hm hx)
    cases h1 : env.crypto.parseKey (pemKey (keyBytes p)) (password p) with
    | none => exact absurd (.parse h1) (hq _)
    | some pk =>
      have h2 : sch.Kind env.crypto pk := Classical.byContradiction fun hx => hq _ (.kind h1 hx)
      have h3 : sch.Strong env.crypto pk := by
        refine Classical.byContradiction fun hx => ?_
        by_cases he : ∃ md cv n b, sch = .ecdsa md cv n b
        · obtain ⟨_, _, _, _, he⟩ := he
          exact hq _ (.broken h1 h2 hx he)
        · exact hq _ (.weak h1 h2 hx (fun md cv n b hy => he ⟨md, cv, n, b, hy⟩))
      cases h4 : env.crypto.md md msg with
      | none => exact absurd (.hash h1 h2 h3 hm h4) (hq _)
      | some hash =>
        have h5 : sch.OnCurve env.crypto pk := Classical.byContradiction fun hx => hq _ (.curve h1 h2 h3 hm h4 hx)
        exact ⟨pk, hash, rfl, rfl, Classical.byContradiction fun hx => hq _ (.sign h1 h2 h3 hm h4 h5 hx)⟩
  unfold Signed Signs
  rw [ha]
  cases sch with
  | hmac md =>
    cases hx : env.crypto.hmac md (hmacKey (keyBytes p)) msg with
    | none => exact absurd (.hmac hseed ha hx) (hf _)
    | some sig => exact ⟨sig, hx⟩
  | rsa md =>
    obtain ⟨pk, hash, h1, h2, sig, h3, -⟩ := hpem md rfl
    exact ⟨sig, pk, hash, h1, h2, h3⟩
  | pss md =>
    obtain ⟨pk, hash, h1, h2, sig, h3⟩ := hpem md rfl
    exact ⟨_, pk, hash, sig, h1, h2, h3, rfl⟩
  | ecdsa md cv n b =>
    obtain ⟨pk, hash, h1, h2, r, t, h3, h4, h5⟩ := hpem md rfl
    exact ⟨_, pk, hash, r, t, h1, h2, h3, h4, h5, rfl⟩
  | eddsa => exact ⟨_, rfl⟩

/-- There is at most one answer. -/
theorem encAnswer_unique {rc rc' : Nat} {t t' : Option Bytes} (h : EncAnswer env p rc t) (h' : EncAnswer env p rc' t') :
    rc = rc' ∧ t = t' := by
  cases h with
  | failed a n =>
    cases h' with
    | failed b => exact ⟨encCode_unique a b, rfl⟩
    | done b => exact absurd (encCode_unique a b) n
  | done a ha hs ht =>
    cases h' with
    | failed b n => exact absurd (encCode_unique b a) n
    | done b hb hs' ht' =>
      rw [ha] at hb; cases hb
      rw [signed_unique hs hs'] at ht
      exact ⟨rfl, by rw [ht, ht']⟩

/-- There is an answer for all parameters. -/
theorem encAnswer_exists (env : Env) (p : EncParams) : ∃ rc t, EncAnswer env p rc t := by
  obtain ⟨rc, hrc⟩ := encCode_exists env p
  by_cases h0 : rc = Code.success
  · subst h0
    have hrc' := hrc
    cases hrc with
    | sign ha f => exact absurd rfl (signFails_ne f)
    | done ha f =>
      obtain ⟨sig, hs⟩ := signed_exists (by rw [ha]; rfl) f
      exact ⟨_, _, .done hrc' ha hs rfl⟩
  · exact ⟨rc, none, .failed hrc h0⟩

/-- What the caller gets for an answer: the code, and for success a new block with the token and a terminating NUL. -/
def EncGives (h : Heap) (rc : Nat) (t : Option Bytes) (r : EncOut) (h' : Heap) : Prop :=
  r.rc = rc ∧ match t with
    | some tok => ∃ id, r.out = some (some ⟨id, tok ++ [0]⟩) ∧ r.outLength = some tok.length ∧ h'.live = id :: h.live
    | none => (r.out = none ∨ r.out = some none) ∧ r.outLength = none ∧ h'.live = h.live

/-- C65: for valid and readable parameters for which encoding is defined, and without allocation failures, `l8w8jwt_encode` returns
exactly the code and token of the specification, and leaves nothing else allocated. -/
theorem C65_encode (hc : CryptoOk env.crypto) (hr : TextsReadable p) (hk : KeyReadable p)
    (hv : validateEncodingParams (some p) = L8W8JWT_SUCCESS) (g : s.good) (hd : EncDefined env p) :
    ∃ r h' rc t, encode env (some p) s h = .ok (r, h') ∧ EncAnswer env p rc t ∧ EncGives h rc t r h' := by
  cases ha : alg? p.alg with
  | none =>
    obtain ⟨rc, h', e, h1, h2, h3⟩ := C19_unknown_alg (env := env) (s := s) (h := h) (p := p) (alg?_none ha)
    have h4 : rc = L8W8JWT_INVALID_ARG := by
      rcases h3 with h3 | h3 | ⟨-, k, h3⟩
      · exact h3
      · rw [hv] at h3; exact absurd h3 h1
      · rw [g.1 k] at h3; cases h3
    exact ⟨_, h', rc, none, e, .failed (h4 ▸ .unknown ha) h1, rfl, Or.inl rfl, rfl, h2⟩
  | some x =>
    obtain ⟨name, sch⟩ := x
    obtain ⟨d1, d2, d3, d4⟩ := hd name sch ha
    have hz : SizesOk p := ⟨d3, fun _ _ h1 => by rw [ha] at h1; cases h1; exact d2⟩
    have hok := textsOk_iff.mpr ⟨hr, d1⟩
    obtain ⟨r, h', e, hcode⟩ := C58_encode (s := s) (h := h) hc hok hk d4 hz g hv
    have hcode := (hcode r.rc).mpr rfl
    have hp := wp_iff_forall.mp (wp_encode_texts (s := s) (h := h) env hc p hok (fun _ => True) hv (Or.inr fun _ => trivial)) r h' e
    by_cases hrc : r.rc = L8W8JWT_SUCCESS
    · obtain ⟨-, hdr, pay, sig, tok, id, msg, ⟨name', sch', ha', hh⟩, hpay, hs, -, -, -, e1, e2, l, -, u1, u2⟩ := hp.success hrc
      rw [ha] at ha'; cases ha'
      have hh' : hdr = writtenHeader p name := (hh.2 (Or.inl g.2)).2 g.1
      have hp' : pay = writtenPayload p := (hpay.2 (Or.inl g.2)).2 g.1
      have hm := u1.2 (Or.inl g.2)
      have ht := u2.2 (Or.inl g.2)
      subst hm hh' hp'
      rw [hrc] at hcode
      exact ⟨r, h', _, _, e, .done hcode ha (signed_of_emits hs) ht, hrc, id, e1, e2, l⟩
    · obtain ⟨e1, e2, e3, -⟩ := hp.failure hrc
      exact ⟨r, h', _, none, e, .failed hcode hrc, rfl, e2, e1, e3⟩

/-! ## Same request, same token -/

section same
variable {q : EncParams} {gb : Nat → Tok} {b : Bool} {t : Int}

theorem edKey_hmacKey (k : Bytes) : EdKey k ↔ (hmacKey k).length = 128 := by
  unfold EdKey hmacKey
  split <;> rename_i hz
  · have : k ≠ [] := by rintro rfl; simp at hz
    have := List.length_pos_iff.mpr this
    simp [hz, List.length_dropLast]
  · simp [hz]

theorem take_edKey {k : Bytes} (h : EdKey k) : k.take 128 = hmacKey k := by
  unfold EdKey at h
  unfold hmacKey
  rcases h with ⟨h1, h2⟩ | ⟨h1, h2⟩
  · rw [if_neg h2, ← h1, List.take_length]
  · rw [if_pos h2, List.dropLast_eq_take, h1]

theorem signFails_same (hs : SameToken p q) {msg : Bytes} {rc : Nat} (hf : SignFails env p msg rc) :
    SignFails (env.elsewhere gb b t) q msg rc := by
  cases hf with
  | seed h1 => exact .seed h1
  | hmac h1 h2 h3 => rw [hs.alg] at h2; rw [hs.key] at h3; exact .hmac h1 h2 h3
  | pem h1 h2 h3 h4 =>
    rw [hs.alg] at h2
    rw [pemKey_hmacKey, hs.key, ← pemKey_hmacKey, hs.pw] at h4
    exact .pem h1 h2 h3 h4
  | edOff h1 h2 h3 => rw [hs.alg] at h2; exact .edOff h1 h2 h3
  | edKey h1 h2 h3 h4 =>
    rw [hs.alg] at h2
    rw [edKey_hmacKey, hs.key, ← edKey_hmacKey] at h4
    exact .edKey h1 h2 h3 h4

theorem _root_.L8w8jwt.Spec.SameToken.symm (hs : SameToken p q) : SameToken q p :=
  ⟨hs.alg.symm, hs.key.symm, hs.pw.symm, ⟨hs.times.1.symm, hs.times.2.1.symm, hs.times.2.2.symm⟩, hs.iss.symm, hs.sub.symm,
    hs.aud.symm, hs.jti.symm, hs.header.symm, hs.payload.symm, ⟨hs.counts.1.symm, hs.counts.2.symm⟩,
    fun h => (hs.comma (hs.counts.2.mpr h)).symm⟩

theorem signFails_same' (hs : SameToken p q) {msg : Bytes} {rc : Nat} (hf : SignFails (env.elsewhere gb b t) q msg rc) :
    SignFails env p msg rc :=
  signFails_same (env := env.elsewhere gb b t) (gb := env.garbage) (b := env.smallStack) (t := env.now) hs.symm hf

/-- A registered string is written in the same way. -/
theorem strMember_same (k : String) {v w : Ptr} {n m : Nat} (h : givenText v n = givenText w m) : strMember k v n = strMember k w m := by
  unfold givenText at h
  cases v with
  | none => cases w with | none => rfl | some w => cases h
  | some v =>
    cases w with
    | none => cases h
    | some w =>
      simp only [Option.map_some, Option.some.injEq] at h
      simp only [strMember, h]

/-- So are claims. -/
theorem extra_same {cl cl' : Option (List Claim)} {n m : Nat} (h : givenClaims cl n = givenClaims cl' m) : extra cl n = extra cl' m := by
  have : ∀ (cl : Option (List Claim)) n, extra cl n = (givenClaims cl n).map fun x =>
      str "\"" ++ escape x.1 ++ str "\":" ++ if x.2.2 then str "\"" ++ escape x.2.1 ++ str "\"" else x.2.1 := by
    intro cl n
    simp only [extra, memberTexts, givenClaims, List.map_map]
    rfl
  rw [this, this, h]

theorem writtenHeader_same (hs : SameToken p q) (name : String) : writtenHeader p name = writtenHeader q name := by
  unfold writtenHeader headerTail
  rw [extra_same hs.header]
  simp only [hs.counts.1]

theorem writtenPayload_same (hs : SameToken p q) : writtenPayload p = writtenPayload q := by
  unfold writtenPayload payloadForm registeredWith
  rw [extra_same hs.payload, strMember_same _ hs.sub, strMember_same _ hs.iss, strMember_same _ hs.aud, strMember_same _ hs.jti,
    hs.times.1, hs.times.2.1, hs.times.2.2]
  by_cases h0 : 0 < p.payloadClaimsCount
  · rw [if_pos h0, if_pos (hs.counts.2.mp h0)]
    simp only [hs.comma h0]
  · rw [if_neg h0, if_neg (fun hx => h0 (hs.counts.2.mpr hx))]

theorem signed_same (hs : SameToken p q) {msg sig : Bytes} (hed : p.alg = 13 → EdKey (keyBytes p)) (h : Signed env p msg sig) :
    Signed (env.elsewhere gb b t) q msg sig := by
  have hpem : pemKey (keyBytes p) = pemKey (keyBytes q) := by rw [pemKey_hmacKey, hs.key, ← pemKey_hmacKey]
  unfold Signed Signs at *
  rw [hs.alg, hpem, hs.pw, hs.key] at h
  split at h
  · exact h
  · split at h
    · exact h
    · exact h
    · exact h
    · exact h
    · exact h
    · rename_i name ha
      have h13 : p.alg = 13 := by
        rw [hs.alg]
        rcases alg?_range q.alg with ⟨j, hj⟩ | ⟨h1, -⟩
        · have key : ∀ j : Fin 14, ∀ name, alg? (j.val : Int) = some (name, .eddsa) → j.val = 13 := by
            intro j
            match j with
            | 0 | 1 | 2 | 3 | 4 | 5 | 6 | 7 | 8 | 9 | 10 | 11 | 12 => intro name hx; cases hx
            | 13 => intro _ _; rfl
          have := key j name (by rw [← hj]; exact ha)
          omega
        · rw [h1] at ha; cases ha
      have hk := hed h13
      have hkq : EdKey (keyBytes q) := by rw [edKey_hmacKey, ← hs.key, ← edKey_hmacKey]; exact hk
      rw [take_edKey hk, hs.key] at h
      rw [take_edKey hkq]
      exact h

theorem encCode_same (hs : SameToken p q) {rc : Nat} (h : EncCode env p rc) : EncCode (env.elsewhere gb b t) q rc := by
  cases h with
  | unknown h1 => rw [hs.alg] at h1; exact .unknown h1
  | sign h1 h2 =>
    rw [hs.alg] at h1
    rw [writtenHeader_same hs, writtenPayload_same hs] at h2
    exact .sign h1 (signFails_same hs h2)
  | done h1 h2 =>
    rw [hs.alg] at h1
    rw [writtenHeader_same hs, writtenPayload_same hs] at h2
    exact .done h1 (fun rc hx => h2 rc (signFails_same' hs hx))

theorem encAnswer_same (hs : SameToken p q) {rc : Nat} {tk : Option Bytes} (h : EncAnswer env p rc tk) :
    EncAnswer (env.elsewhere gb b t) q rc tk := by
  cases h with
  | failed h1 h2 => exact .failed (encCode_same hs h1) h2
  | done h1 h2 h3 h4 =>
    have hed : p.alg = 13 → EdKey (keyBytes p) := by
      intro h13
      refine Classical.byContradiction fun hn => ?_
      cases h1 with
      | sign h5 h6 => exact absurd rfl (signFails_ne h6)
      | done h5 h6 =>
        have ha : alg? p.alg = some ("EdDSA", .eddsa) := by rw [h13]; rfl
        rw [ha] at h2 h5; cases h2; cases h5
        by_cases hsd : env.crypto.seedOk = true
        · by_cases hev : env.eddsa = true
          · exact h6 _ (.edKey hsd ha hev hn)
          · exact h6 _ (.edOff hsd ha (by simpa using hev))
        · exact h6 _ (.seed (by simpa using hsd))
    rw [writtenHeader_same hs, writtenPayload_same hs] at h3 h4
    exact .done (encCode_same hs h1) (hs.alg ▸ h2) (signed_same hs hed h3) h4

/-- C66: requests for the same token give the same code and the same token, wherever the parameters are and whatever is behind them,
with whichever contents of uninitialised memory, size of the stack, and time. -/
theorem C66_encode_same {q : EncParams} {gb : Nat → Tok} {b : Bool} {t : Int} {s' : Sched} {k : Heap} (hc : CryptoOk env.crypto)
    (hs : SameToken p q) (hr : TextsReadable p) (hk : KeyReadable p) (hv : validateEncodingParams (some p) = L8W8JWT_SUCCESS)
    (gd : s.good) (hd : EncDefined env p) (hr' : TextsReadable q) (hk' : KeyReadable q)
    (hv' : validateEncodingParams (some q) = L8W8JWT_SUCCESS) (gd' : s'.good) (hd' : EncDefined (env.elsewhere gb b t) q) :
    ∃ rc tk r h' r' k', encode env (some p) s h = .ok (r, h') ∧ EncGives h rc tk r h' ∧
      encode (env.elsewhere gb b t) (some q) s' k = .ok (r', k') ∧ EncGives k rc tk r' k' := by
  obtain ⟨r, h', rc, tk, e, a, c⟩ := C65_encode (s := s) (h := h) hc hr hk hv gd hd
  obtain ⟨r', k', rc', tk', e', a', c'⟩ := C65_encode (env := env.elsewhere gb b t) (s := s') (h := k) hc hr' hk' hv' gd' hd'
  obtain ⟨rfl, rfl⟩ := encAnswer_unique (encAnswer_same hs a) a'
  exact ⟨_, _, _, _, _, _, e, c, e', c'⟩

end same

/-- The specification gives the toy token: its header and payload, and its code for the authentication of both. -/
example : EncAnswer toy { toyParams with iss := some ⟨0, str "me" ++ [0]⟩ } 0
    (some (mkTok "{\"alg\":\"HS256\",\"typ\":\"JWT\"}" "{\"iss\":\"me\"}"
      (toyMac "{\"alg\":\"HS256\",\"typ\":\"JWT\"}" "{\"iss\":\"me\"}"))) := by
  refine .done (name := "HS256") (sch := .hmac .sha256) (.done rfl ?_) rfl (sig := toyMac "{\"alg\":\"HS256\",\"typ\":\"JWT\"}" "{\"iss\":\"me\"}") ?_ ?_
  · intro rc h
    cases h with
    | seed h => cases h
    | hmac _ h1 h2 => cases h1; cases h2
    | pem _ h1 h2 => cases h1; cases h2
    | edOff _ h1 => cases h1
    | edKey _ h1 => cases h1
  · show _ = _
    decide +kernel
  · show _ = _
    decide +kernel

/-- The same token asked for in other memory: with lengths and without, with and without the terminator of the key. -/
example : SameToken { toyParams with iss := some ⟨0, str "me" ++ [0]⟩ } { toyParams with
    secretKey := some (str "secret" ++ [0, 1, 2])
    secretKeyLength := 7
    iss := some ⟨7, str "mean"⟩
    issLength := 2 } :=
  ⟨rfl, by decide, rfl, ⟨rfl, rfl, rfl⟩, by decide, rfl, rfl, rfl, rfl, rfl, ⟨Iff.rfl, Iff.rfl⟩, fun h => absurd h (by decide)⟩

/-- Both run: the tokens are the same. -/
example : tokenOf toy { toyParams with iss := some ⟨0, str "me" ++ [0]⟩ } = tokenOf { toy with smallStack := true, now := 3 } { toyParams with
    secretKey := some (str "secret" ++ [0, 1, 2])
    secretKeyLength := 7
    iss := some ⟨7, str "mean"⟩
    issLength := 2 } ∧ (tokenOf toy { toyParams with iss := some ⟨0, str "me" ++ [0]⟩ }).isSome = true := by decide +kernel

end L8w8jwt
