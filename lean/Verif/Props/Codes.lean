import Verif.Spec.Outcome
import Verif.Props.EncodeMore
import Verif.Props.Loose
/-!
# Property C58: every failure is reported by its documented return code
-/

namespace L8w8jwt
open Spec

variable {s : Sched} {h h' : Heap} {env : Env}

/-! ## The encoder -/

section
variable {p : EncParams}

theorem pemFails_unique {c : Crypto} {sch : Scheme} {k msg : Bytes} {pw : Option Bytes} {rc rc' : Nat}
    (h : PemFails c sch k pw msg rc) (h' : PemFails c sch k pw msg rc') : rc = rc' := by
  cases hk : c.parseKey k pw with
  | none =>
    have key : ∀ {x}, PemFails c sch k pw msg x → x = Code.keyParse := by
      intro x hx
      cases hx with
      | parse => rfl
      | kind e | weak e | broken e | hash e | curve e | sign e => simp [hk] at e
    rw [key h, key h']
  | some pk =>
    have key : ∀ {x}, PemFails c sch k pw msg x →
        (¬ sch.Kind c pk ∧ x = Code.wrongKey) ∨
        (sch.Kind c pk ∧ ¬ sch.Strong c pk ∧ (∀ md cv n b, sch ≠ .ecdsa md cv n b) ∧ x = Code.wrongKey) ∨
        (sch.Kind c pk ∧ ¬ sch.Strong c pk ∧ (∃ md cv n b, sch = .ecdsa md cv n b) ∧ x = Code.keyParse) ∨
        (sch.Kind c pk ∧ sch.Strong c pk ∧ (∃ md, sch.prehash = some md ∧ c.md md msg = none) ∧ x = Code.sha2) ∨
        (sch.Kind c pk ∧ sch.Strong c pk ∧ (∃ md hash, sch.prehash = some md ∧ c.md md msg = some hash) ∧ ¬ sch.OnCurve c pk ∧
          x = Code.wrongKey) ∨
        (sch.Kind c pk ∧ sch.Strong c pk ∧ (∃ md hash, sch.prehash = some md ∧ c.md md msg = some hash) ∧ sch.OnCurve c pk ∧
          x = Code.signing) := by
      intro x hx
      cases hx with
      | parse e => rw [hk] at e; cases e
      | kind e a => rw [hk] at e; cases e; exact Or.inl ⟨a, rfl⟩
      | weak e a b d => rw [hk] at e; cases e; exact Or.inr (Or.inl ⟨a, b, d, rfl⟩)
      | broken e a b d => rw [hk] at e; cases e; exact Or.inr (Or.inr (Or.inl ⟨a, b, ⟨_, _, _, _, d⟩, rfl⟩))
      | hash e a b d f => rw [hk] at e; cases e; exact Or.inr (Or.inr (Or.inr (Or.inl ⟨a, b, ⟨_, d, f⟩, rfl⟩)))
      | curve e a b d f g => rw [hk] at e; cases e; exact Or.inr (Or.inr (Or.inr (Or.inr (Or.inl ⟨a, b, ⟨_, _, d, f⟩, g, rfl⟩))))
      | sign e a b d f g => rw [hk] at e; cases e; exact Or.inr (Or.inr (Or.inr (Or.inr (Or.inr ⟨a, b, ⟨_, _, d, f⟩, g, rfl⟩))))
    have hash : (∃ md, sch.prehash = some md ∧ c.md md msg = none) → (∃ md hash, sch.prehash = some md ∧ c.md md msg = some hash) → False := by
      rintro ⟨md, a, b⟩ ⟨md', x, d, f⟩
      rw [a] at d; cases d
      rw [b] at f; cases f
    rcases key h with ⟨a, rfl⟩ | ⟨a, b, d, rfl⟩ | ⟨a, b, ⟨_, _, _, _, d⟩, rfl⟩ | ⟨a, b, d, rfl⟩ | ⟨a, b, d, f, rfl⟩ | ⟨a, b, d, f, rfl⟩ <;>
      rcases key h' with ⟨a', rfl⟩ | ⟨a', b', d', rfl⟩ | ⟨a', b', ⟨_, _, _, _, d'⟩, rfl⟩ | ⟨a', b', d', rfl⟩ | ⟨a', b', d', f', rfl⟩ | ⟨a', b', d', f', rfl⟩ <;>
      first
        | rfl
        | contradiction
        | exact (hash d d').elim
        | exact (hash d' d).elim
        | exact absurd d (d' _ _ _ _)
        | exact absurd d' (d _ _ _ _)

theorem signFails_unique {msg : Bytes} {rc rc' : Nat} (h : SignFails env p msg rc) (h' : SignFails env p msg rc') : rc = rc' := by
  cases h with
  | seed a =>
    cases h' with
    | seed => rfl
    | hmac b | pem b | edOff b | edKey b => rw [a] at b; cases b
  | hmac a b =>
    cases h' with
    | seed a' => rw [a] at a'; cases a'
    | hmac => rfl
    | pem _ b' d => rw [b] at b'; cases b'; cases d
    | edOff _ b' | edKey _ b' => rw [b] at b'; cases b'
  | pem a b d e =>
    cases h' with
    | seed a' => rw [a] at a'; cases a'
    | hmac _ b' | edOff _ b' | edKey _ b' => rw [b] at b'; cases b'; cases d
    | pem _ b' _ e' => rw [b] at b'; cases b'; exact pemFails_unique e e'
  | edOff a b d =>
    cases h' with
    | seed a' => rw [a] at a'; cases a'
    | hmac _ b' => rw [b] at b'; cases b'
    | pem _ b' d => rw [b] at b'; cases b'; cases d
    | edOff => rfl
    | edKey _ _ d' => rw [d] at d'; cases d'
  | edKey a b d =>
    cases h' with
    | seed a' => rw [a] at a'; cases a'
    | hmac _ b' => rw [b] at b'; cases b'
    | pem _ b' d => rw [b] at b'; cases b'; cases d
    | edOff _ _ d' => rw [d] at d'; cases d'
    | edKey => rfl

/-- Failing to sign has a code other than success. -/
theorem signFails_ne {msg : Bytes} {rc : Nat} (h : SignFails env p msg rc) : rc ≠ Code.success := by
  cases h with
  | seed => decide
  | hmac => decide
  | pem _ _ _ e => cases e <;> decide
  | edOff => decide
  | edKey => decide

/-- There is exactly one code for all parameters. -/
theorem encCode_unique {rc rc' : Nat} (h : EncCode env p rc) (h' : EncCode env p rc') : rc = rc' := by
  cases h with
  | unknown a =>
    cases h' with
    | unknown => rfl
    | sign b | done b => rw [a] at b; cases b
  | sign a f =>
    cases h' with
    | unknown b => rw [a] at b; cases b
    | sign b f' => rw [a] at b; cases b; exact signFails_unique f f'
    | done b f' => rw [a] at b; cases b; exact absurd f (f' _)
  | done a f =>
    cases h' with
    | unknown b => rw [a] at b; cases b
    | sign b f' => rw [a] at b; cases b; exact absurd f' (f _)
    | done => rfl

theorem encCode_exists (env : Env) (p : EncParams) : ∃ rc, EncCode env p rc := by
  cases ha : alg? p.alg with
  | none => exact ⟨_, .unknown ha⟩
  | some x =>
    obtain ⟨name, sch⟩ := x
    by_cases hf : ∃ rc, SignFails env p (signingInput (writtenHeader p name) (writtenPayload p)) rc
    · obtain ⟨rc, hf⟩ := hf
      exact ⟨rc, .sign ha hf⟩
    · exact ⟨_, .done ha (fun rc hx => hf ⟨rc, hx⟩)⟩

/-- C58: for valid and readable parameters, and without allocation failures, `l8w8jwt_encode` returns exactly the code documented
for the reason of the failure, or success. -/
theorem C58_encode (hc : CryptoOk env.crypto) (hok : TextsOk env p) (hk : KeyReadable p) (hf : env.crypto.seedOk = true → needsPem p.alg → PemFits p)
    (hz : SizesOk p) (g : s.good) (hv : validateEncodingParams (some p) = L8W8JWT_SUCCESS) :
    ∃ r h', encode env (some p) s h = .ok (r, h') ∧ ∀ rc, EncCode env p rc ↔ rc = r.rc := by
  have hw := wp_encode_with (s := s) (h := h) env p hok (fun msg sig => (∀ rc, ¬ SignFails env p msg rc) ∧ Emits env p msg sig)
    (fun msg rc => SignFails env p msg rc) (fun _ => False) hv
    (fun msg ha => sigOf_full hc p msg _ hv ha (Or.inl ⟨hk, hf⟩)) (fun _ _ h => h.2.2.1) (Or.inl ⟨Or.inr g.1, hz⟩)
  obtain ⟨r, h', e, hp⟩ := wp_iff_exists.mp hw
  refine ⟨r, h', e, fun rc => ?_⟩
  have key : EncCode env p r.rc := by
    by_cases hr : r.rc = L8W8JWT_SUCCESS
    · obtain ⟨-, hdr, pay, sig, tok, id, msg, ⟨name', sch', ha', hh⟩, hpay, ⟨hs, -⟩, -, -, -, -, -, -, -, u1, -⟩ := hp.success hr
      have hm := u1.2 (Or.inl g.2)
      rw [(hh.2 (Or.inl g.2)).2 g.1, (hpay.2 (Or.inl g.2)).2 g.1] at hm
      rw [hm] at hs
      rw [hr]
      exact .done ha' hs
    · obtain ⟨-, -, -, hd⟩ := hp.failure hr
      rcases hd with ⟨h1, h2⟩ | ⟨b, hb, hbad⟩ | ⟨hdr, pay, msg, ⟨name', sch', ha', hh⟩, hpay, u, hs⟩ | ⟨⟨k, hk⟩, -⟩
      · rw [h2]
        exact .unknown h1
      · exact (texts_small hz g.2 hb hbad).elim
      · rcases hs with hs | ⟨sig, ⟨-, hs⟩, hbad⟩
        · rw [u.2 (Or.inl g.2), (hh.2 (Or.inl g.2)).2 g.1, (hpay.2 (Or.inl g.2)).2 g.1] at hs
          exact .sign ha' hs
        · rcases hbad with hbad | hbad
          · exact (emits_ne hc hs hbad).elim
          · have := hs.2.1; omega
      · rw [g.1 k] at hk; cases hk
  exact ⟨fun hx => encCode_unique hx key, fun hx => hx ▸ key⟩

end

/-- Examples of the codes: success, an unknown algorithm, no entropy, a key text that is no key, an elliptic curve key for RS256, a
weak RSA key, a key on another curve, a hash function that fails, EdDSA that was not built in, and an EdDSA key of a wrong length. -/
example :
    EncCode toy toyParams Code.success ∧
    EncCode toy { toyParams with alg := 14 } Code.invalidArg ∧
    EncCode { toy with crypto := { toyCrypto with seedOk := false } } toyParams Code.seed ∧
    EncCode toy { toyParams with alg := 3 } Code.keyParse ∧
    EncCode toy { toyParams with alg := 3, secretKey := some (str "P"), secretKeyLength := 1 } Code.wrongKey ∧
    EncCode toy { toyParams with alg := 3, secretKey := some (str "W"), secretKeyLength := 1 } Code.wrongKey ∧
    EncCode toy { toyParams with alg := 9, secretKey := some (str "K"), secretKeyLength := 1 } Code.wrongKey ∧
    EncCode { toy with crypto := { toyCrypto with md := fun _ _ => none } }
      { toyParams with alg := 3, secretKey := some (str "R"), secretKeyLength := 1 } Code.sha2 ∧
    EncCode { toy with crypto := { toyCrypto with hmac := fun _ _ _ => none } } toyParams Code.signing ∧
    EncCode { toy with eddsa := false } { toyParams with alg := 13 } Code.unsupported ∧
    EncCode toy { toyParams with alg := 13 } Code.wrongKey := by
  refine ⟨?_, .unknown (by decide), .sign rfl (.seed rfl), .sign rfl (.pem rfl rfl rfl (.parse rfl)),
    .sign rfl (.pem rfl rfl rfl (.kind (pk := ⟨false, 256, .secp256r1⟩) rfl (by simp [Scheme.Kind, toy, toyCrypto]))),
    .sign rfl (.pem rfl rfl rfl (.weak (pk := ⟨true, 1024, .other 0⟩) rfl rfl ?_ (fun _ _ _ _ hx => by cases hx))),
    .sign rfl (.pem rfl rfl rfl (.curve (pk := ⟨false, 256, .secp256k1⟩) (hash := _) rfl rfl rfl rfl rfl ?_)),
    .sign rfl (.pem rfl rfl rfl (.hash (pk := ⟨true, 2048, .other 0⟩) rfl rfl ?_ rfl rfl)),
    .sign rfl (.hmac rfl rfl rfl), .sign rfl (.edOff rfl rfl rfl), .sign rfl (.edKey rfl rfl rfl (by unfold EdKey; decide))⟩
  · exact .done rfl (not_signFails rfl rfl (fun _ _ hx => by cases hx) (fun _ hx => by cases hx) (fun hx => by cases hx))
  · show ¬ 2048 ≤ 1024; decide
  · rintro ⟨hx, -⟩; cases hx
  · show 2048 ≤ 2048; decide

/-! ## The decoder -/

section
variable {p : DecParams} {tok : Bytes}

theorem accepts_unique {t : Bytes} {a b : Bool} (h : Accepts env t a) (h' : Accepts env t b) : a = b := by
  obtain ⟨_, _, _, h⟩ := h
  obtain ⟨_, _, _, h'⟩ := h'
  exact (parsed_unique h h').1

theorem verifyFails_unique {rc rc' : Nat} (h : VerifyFails env p tok rc) (h' : VerifyFails env p tok rc') : rc = rc' := by
  obtain ⟨-, a, b, c, h3, h⟩ := h
  obtain ⟨-, a', b', c', h3', h'⟩ := h'
  obtain ⟨rfl, rfl, rfl⟩ := three_unique h3 h3'
  exact verFails_unique h h'

/-- There is at most one code. -/
theorem decCode_unique {rc rc' : Nat} (h : DecCode env p tok rc) (h' : DecCode env p tok rc') : rc = rc' := by
  cases h with
  | segments a n =>
    cases h' with
    | segments b => exact SegCode_unique a b
    | verify b | claims b | done b => exact absurd (SegCode_unique a b) n
  | verify a f =>
    cases h' with
    | segments b n => exact absurd (SegCode_unique b a) n
    | verify _ f' => exact verifyFails_unique f f'
    | claims _ f' | done _ f' => exact absurd f (f' _)
  | claims a f hp hx =>
    cases h' with
    | segments b n => exact absurd (SegCode_unique b a) n
    | verify _ f' => exact absurd f' (f _)
    | claims => rfl
    | done _ _ hp' h1 h2 =>
      obtain ⟨rfl, rfl⟩ := parts_unique hp hp'
      rcases hx with hx | hx
      · cases accepts_unique hx h1
      · cases accepts_unique hx h2
  | done a f hp h1 h2 =>
    cases h' with
    | segments b n => exact absurd (SegCode_unique b a) n
    | verify _ f' => exact absurd f' (f _)
    | claims _ _ hp' hx =>
      obtain ⟨rfl, rfl⟩ := parts_unique hp hp'
      rcases hx with hx | hx
      · cases accepts_unique hx h1
      · cases accepts_unique hx h2
    | done => rfl

theorem claimsIn_accepts {t : Bytes} {rc : Nat} {ds : List DClaim} (hx : claimsIn env t = .ok (rc, ds)) :
    (rc = L8W8JWT_SUCCESS ∧ Accepts env t true) ∨ (rc ≠ L8W8JWT_SUCCESS ∧ Accepts env t false) := by
  obtain ⟨ok, n, b, hp, e, -⟩ := claimsIn_ok hx
  cases ok with
  | true => exact Or.inl ⟨e, _, _, _, hp⟩
  | false => exact Or.inr ⟨by rw [e]; decide, _, _, _, hp⟩

/-- The code at the end of the body. -/
theorem outcome_code (g : s.noAllocFail) {st : DecState} (ho : Outcome env s p tok st) : DecCode env p tok st.rc := by
  have seg : ∀ {sg}, SegInfo s p.alg tok sg → SegCode p.alg tok sg.rc := fun hi => hi.code.resolve_right (fun hx => hx.2 g)
  cases ho with
  | oom hn => exact absurd g hn
  | segs hi hn => exact .segments (seg hi) hn
  | verify hi he hs => exact .verify (by rw [← show _ = Code.success from he]; exact seg hi) (sig_verifyFails hs)
  | claims hi he hs hp hcl =>
    refine .claims (by rw [← show _ = Code.success from he]; exact seg hi) (sig_not_verifyFails hs) hp ?_
    rcases hcl g with ⟨rc, ds, h1, hn⟩ | ⟨_, rc, ds, -, h1, hn⟩
    · exact Or.inl ((claimsIn_accepts h1).resolve_left (fun hx => hn hx.1)).2
    · exact Or.inr ((claimsIn_accepts h1).resolve_left (fun hx => hn hx.1)).2
  | done hi he hs hp hvw hcl hval hfs =>
    obtain ⟨_, _, c1, c2, -⟩ := hfs
    exact .done (by rw [← show _ = Code.success from he]; exact seg hi) (sig_not_verifyFails hs) hp
      ((claimsIn_accepts c1).resolve_right (fun hx => hx.1 rfl)).2 ((claimsIn_accepts c2).resolve_right (fun hx => hx.1 rfl)).2

/-- Every token has a code. -/
theorem decCode_exists (env : Env) (p : DecParams) (tok : Bytes) : ∃ rc, DecCode env p tok rc := by
  have hseg : ∃ rc, SegCode p.alg tok rc ∧ (rc = Code.success → ∃ a b, Parts tok a b) := by
    by_cases h1 : 46 ∈ tok
    · obtain ⟨a, r, rfl, ha⟩ := List.eq_append_cons_of_mem h1
      by_cases h2 : 46 ∈ r
      · obtain ⟨b, c, rfl, hb⟩ := List.eq_append_cons_of_mem h2
        have h3 : ThreeParts (a ++ 46 :: (b ++ 46 :: c)) a b c := ⟨rfl, ha, hb⟩
        by_cases hd : b64Decode true a = none ∨ b64Decode true b = none ∨ b64Decode true c = none
        · exact ⟨_, Or.inr (Or.inr ⟨a, b, c, h3, Or.inl ⟨hd, rfl⟩⟩), fun _ => ⟨a, b, Or.inr ⟨c, h3⟩⟩⟩
        · exact ⟨_, Or.inr (Or.inr ⟨a, b, c, h3, Or.inr ⟨fun h => hd (Or.inl h), fun h => hd (Or.inr (Or.inl h)),
            fun h => hd (Or.inr (Or.inr h)), rfl⟩⟩), fun _ => ⟨a, b, Or.inr ⟨c, h3⟩⟩⟩
      · have h3 : TwoParts (a ++ 46 :: r) a r := ⟨rfl, ha, h2⟩
        refine ⟨if b64Decode true a = none then Code.base64 else if p.alg ≠ -1 then Code.missingSignature
          else if b64Decode true r = none then Code.base64 else Code.success, Or.inr (Or.inl ⟨a, r, h3, ?_⟩), fun _ => ⟨a, r, Or.inl h3⟩⟩
        by_cases d1 : b64Decode true a = none
        · exact Or.inl ⟨d1, if_pos d1⟩
        rw [if_neg d1]
        by_cases d2 : p.alg ≠ -1
        · exact Or.inr (Or.inl ⟨d1, d2, if_pos d2⟩)
        rw [if_neg d2]
        by_cases d3 : b64Decode true r = none
        · exact Or.inr (Or.inr (Or.inl ⟨d1, by omega, d3, if_pos d3⟩))
        · exact Or.inr (Or.inr (Or.inr ⟨d1, by omega, d3, if_neg d3⟩))
    · exact ⟨_, Or.inl ⟨h1, rfl⟩, fun hx => absurd hx (by decide)⟩
  obtain ⟨rc, hs, hp⟩ := hseg
  by_cases hz : rc = Code.success
  · subst hz
    by_cases hf : ∃ rc, VerifyFails env p tok rc
    · obtain ⟨rc, hf⟩ := hf
      exact ⟨rc, .verify hs hf⟩
    · obtain ⟨a, b, hp⟩ := hp rfl
      have hf' : ∀ rc, ¬ VerifyFails env p tok rc := fun rc hx => hf ⟨rc, hx⟩
      obtain ⟨ok1, _, _, _, p1⟩ := parsed_exist env.checknum (readText a)
      obtain ⟨ok2, _, _, _, p2⟩ := parsed_exist env.checknum (readText b)
      cases ok1 with
      | false => exact ⟨_, .claims hs hf' hp (Or.inl ⟨_, _, _, p1⟩)⟩
      | true =>
        cases ok2 with
        | false => exact ⟨_, .claims hs hf' hp (Or.inr ⟨_, _, _, p2⟩)⟩
        | true => exact ⟨_, .done hs hf' hp ⟨_, _, _, p1⟩ ⟨_, _, _, p2⟩⟩
  · exact ⟨rc, .segments hs hz⟩

/-- C58: for valid parameters, and without allocation failures, whatever `l8w8jwt_decode` returns is the code documented for the
reason of the failure, or success. -/
theorem C58_decode_code (hc : CryptoOk env.crypto) (hv : validateDecodingParams env (some p) = L8W8JWT_SUCCESS) (ht : TokenMem p tok)
    (g : s.noAllocFail) {a b : Bool} (hab : a = true ∨ b = false) {r : DecOut} (he : decode env (some p) false a b s h = .ok (r, h')) (rc : Nat) :
    DecCode env p tok rc ↔ rc = r.rc := by
  have key : DecCode env p tok r.rc := by
    rcases decode_returns he with ⟨-, -, -, hbad⟩ | ⟨p1, st, g1, hp, -, -, -, hb, rfl⟩
    · exfalso
      rcases hbad with hn | hn | hn
      · exact hn hv
      · cases hn
      · rcases hab with h1 | h1 <;> rw [h1] at hn <;> simp at hn
    · cases hp
      have : (decOut a st).rc = st.rc := by unfold decOut; split <;> rfl
      rw [this]
      exact outcome_code g (outcome_of hc hv ht hb)
  exact ⟨fun hx => decCode_unique hx key, fun hx => hx ▸ key⟩

/-- The same for `l8w8jwt_decode_raw`. -/
theorem C58_decodeRaw_code (hc : CryptoOk env.crypto) (hv : validateDecodingParams env (some p) = L8W8JWT_SUCCESS) (ht : TokenMem p tok)
    (g : s.noAllocFail) {x : RawArgs} (hx : x.bad = false) {r : RawOut} (he : decodeRaw env (some p) false x s h = .ok (r, h')) (rc : Nat) :
    DecCode env p tok rc ↔ rc = r.rc := by
  have key : DecCode env p tok r.rc := by
    rcases decodeRaw_returns he with ⟨-, -, -, hbad⟩ | ⟨p1, st, g1, hp, -, -, -, hb, rfl⟩
    · exfalso
      rcases hbad with hn | hn | hn
      · exact hn hv
      · cases hn
      · rw [hx] at hn; cases hn
    · cases hp
      exact outcome_code g (outcome_of hc hv ht hb)
  exact ⟨fun hx => decCode_unique hx key, fun hx => hx ▸ key⟩

/-- C58: where decoding is defined it returns the documented code. -/
theorem C58_decode (hc : CryptoOk env.crypto) (hv : validateDecodingParams env (some p) = L8W8JWT_SUCCESS) (ht : TokenMem p tok)
    (g : s.noAllocFail) (t : Tame env s p tok) :
    ∃ r h', decode env (some p) false false false s h = .ok (r, h') ∧ ∀ rc, DecCode env p tok rc ↔ rc = r.rc := by
  obtain ⟨r, h', he, -⟩ :=
    wp_iff_exists.mp (wp_decode (s := s) (h := h) hc hv ht false false (Or.inr rfl) (fun _ => False) (Or.inl t.safe))
  exact ⟨r, h', he, C58_decode_code hc hv ht g (Or.inr rfl) he⟩

end

/-- Examples of the codes: a text without dots, a token without signature, a token with a segment that is only padding, a key that
is no key, a certificate that is none, EdDSA with a key of a wrong length, a payload that is no object, and success. -/
example :
    verdict (toyDec (str "abc")) = some (Code.format, some 0xffffffff#32) ∧
    verdict (toyDec (str "e30.e30")) = some (Code.missingSignature, some 0xffffffff#32) ∧
    verdict (toyDec (str "e30.=.e30")) = some (Code.base64, some 0xffffffff#32) ∧
    verdict (toyDec (mkTok hdr1 pay1 (toyMac hdr1 pay1)) 3) = some (Code.keyParse, some 0xffffffff#32) ∧
    verdict { toyDec (mkTok hdr1 pay1 (toyMac hdr1 pay1)) with
      verificationKey := some (str "-----BEGIN CERTIFICATE-----"), verificationKeyLength := 27 } = some (Code.keyParse, some 0xffffffff#32) ∧
    verdict (toyDec (mkTok hdr1 pay1 (toyMac hdr1 pay1)) 13) = some (Code.wrongKey, some 0xffffffff#32) ∧
    verdict (toyDec (mkTok hdr1 "[1]" (toyMac hdr1 "[1]"))) = some (Code.format, some 0xffffffff#32) ∧
    verdict (toyDec (mkTok hdr1 pay1 (toyMac hdr1 pay1))) = some (Code.success, some 0) := by decide +kernel

end L8w8jwt
