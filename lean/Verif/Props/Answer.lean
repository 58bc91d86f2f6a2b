import Verif.Props.Defined
/-!
# Property C62: everything decoding tells the caller
-/

namespace L8w8jwt
open Spec

variable {s : Sched} {h h' : Heap} {env : Env} {p : DecParams} {tok : Bytes}

/-- There is at most one answer. -/
theorem answer_unique {rc rc' : Nat} {v v' : BitVec 32} {ds ds' : List DClaim} (h : Answer env p tok rc v ds)
    (h' : Answer env p tok rc' v' ds') : rc = rc' ∧ v = v' ∧ ds = ds' := by
  have code : ∀ {rc v ds}, Answer env p tok rc v ds → DecCode env p tok rc := by
    intro rc v ds h
    cases h with
    | failed a | good a | bad a => exact a
  have e := decCode_unique (code h) (code h')
  subst e
  refine ⟨rfl, ?_⟩
  cases h with
  | failed a n =>
    cases h' with
    | failed => exact ⟨rfl, rfl⟩
    | good | bad => exact absurd rfl n
  | good a hp p1 p2 hb =>
    cases h' with
    | failed _ n => exact absurd rfl n
    | bad _ _ _ _ hb' => exact absurd hb' hb
    | good a' hp' p1' p2' =>
      obtain ⟨rfl, rfl⟩ := parts_unique hp hp'
      obtain ⟨-, rfl, -⟩ := parsed_unique p1 p1'
      obtain ⟨-, rfl, -⟩ := parsed_unique p2 p2'
      exact ⟨rfl, rfl⟩
  | bad a hp p1 p2 hb =>
    cases h' with
    | failed _ n => exact absurd rfl n
    | good _ _ _ _ hb' => exact absurd hb hb'
    | bad a' hp' p1' p2' =>
      obtain ⟨rfl, rfl⟩ := parts_unique hp hp'
      obtain ⟨-, rfl, -⟩ := parsed_unique p1 p1'
      obtain ⟨-, rfl, -⟩ := parsed_unique p2 p2'
      exact ⟨rfl, rfl⟩

/-- Every token has an answer. -/
theorem answer_exists (env : Env) (p : DecParams) (tok : Bytes) : ∃ rc v ds, Answer env p tok rc v ds := by
  obtain ⟨rc, hd⟩ := decCode_exists env p tok
  by_cases hz : rc = Code.success
  · subst hz
    have hd' := hd
    cases hd with
    | segments _ n => exact absurd rfl n
    | verify _ hf =>
      obtain ⟨-, a, b, c, -, hf⟩ := hf
      exact absurd rfl (verFails_codes hf).1
    | done _ _ hp h1 h2 =>
      obtain ⟨_, _, _, p1⟩ := h1
      obtain ⟨_, _, _, p2⟩ := h2
      by_cases hb : BadSignature env p tok
      · exact ⟨_, _, _, .bad hd' hp p1 p2 hb⟩
      · exact ⟨_, _, _, .good hd' hp p1 p2 hb⟩
  · exact ⟨rc, _, _, .failed hd hz⟩

theorem sig_bad {vr : Bool} (h : Sig env p tok (.ok vr)) : vr = false ↔ BadSignature env p tok := by
  rcases h with ⟨h1, h2⟩ | ⟨h1, a, b, c, d, h3, -, hp⟩
  · cases h2
    exact ⟨fun h => (nomatch h), fun h => absurd h1 h.1⟩
  · cases vr with
    | true =>
      refine ⟨fun h => (nomatch h), fun ⟨_, hs, a', b', c', h3', hn⟩ => ?_⟩
      obtain ⟨rfl, rfl, rfl⟩ := three_unique h3 h3'
      exact absurd (hp.2 hs) hn
    | false => exact ⟨fun _ => ⟨h1, hp.2.1, a, b, c, h3, hp.2.2⟩, fun _ => rfl⟩

/-- The answer at the end of the body. -/
theorem outcome_answer (g : s.good) (hx : ExpectOk p) (hn : NowOk env.now) {st : DecState} (ho : Outcome env s p tok st) :
    ∃ ds, Answer env p tok st.rc st.validation ds ∧ (st.rc = L8W8JWT_SUCCESS → Views st.claims.items ds) := by
  have code := outcome_code g.1 ho
  cases ho with
  | oom hf => exact absurd g.1 hf
  | segs hi hn => exact ⟨[], .failed code hn, fun h => absurd h hn⟩
  | verify hi he hs =>
    obtain ⟨-, a, b, c, -, hf⟩ := sig_verifyFails hs
    have := (verFails_codes hf).1
    exact ⟨[], .failed code this, fun h => absurd h this⟩
  | claims hi he hs hp hcl =>
    exact ⟨[], .failed code (show L8W8JWT_DECODE_FAILED_INVALID_TOKEN_FORMAT ≠ L8W8JWT_SUCCESS by decide), fun h => absurd (show L8W8JWT_DECODE_FAILED_INVALID_TOKEN_FORMAT = L8W8JWT_SUCCESS from h) (by decide)⟩
  | @done sg blk cs a b vr v ds1 ds2 hi he hs hp hvw hcl hval =>
    obtain ⟨c1, c2⟩ := hcl (Or.inl g.grow)
    obtain ⟨ok1, n1, b1, p1, q1, -⟩ := claimsIn_ok c1
    obtain ⟨ok2, n2, b2, p2, q2, -⟩ := claimsIn_ok c2
    have o1 : ok1 = true := by cases ok1 with | true => rfl | false => exact absurd q1 (by decide)
    have o2 : ok2 = true := by cases ok2 with | true => rfl | false => exact absurd q2 (by decide)
    subst o1; subst o2
    have ht := (validateClaims_ok_iff hvw hx hn _).mp ⟨_, hval⟩
    rw [validateClaims_eq hvw hx hn ht] at hval
    injection hval with hval
    subst hval
    refine ⟨ds1 ++ ds2, ?_, fun _ => hvw⟩
    cases vr with
    | true =>
      have := Answer.good (env := env) (p := p) code hp p1 p2 (fun hb => (nomatch (sig_bad hs).mpr hb))
      rw [← BitVec.zero_or (x := claimFlags _ _ _)] at this
      exact this
    | false => exact .bad code hp p1 p2 ((sig_bad hs).mp rfl)

/-- C62: `l8w8jwt_decode` computes a function of the token, the key and the expected values: whenever decoding is defined, and no
allocation fails, return code, validation result and claims are those of the specification. -/
theorem C62_decode (hc : CryptoOk env.crypto) (hv : validateDecodingParams env (some p) = L8W8JWT_SUCCESS) (ht : TokenMem p tok)
    (gd : s.good) (hr : VerKeyReadable p) (hx : ExpectOk p) (hn : NowOk env.now) (hd : DecDefined env p tok) :
    ∃ r h' rc v ds, decode env (some p) false false false s h = .ok (r, h') ∧ Answer env p tok rc v ds ∧
      r.rc = rc ∧ r.validation = some v ∧
      (rc ≠ L8W8JWT_SUCCESS → r.claims = none ∧ r.claimsLength = none) ∧
      (rc = L8W8JWT_SUCCESS → ∃ arr, r.claims = some arr ∧ r.claimsLength = some ds.length ∧ Views arr.items ds) := by
  have safe : SegCode p.alg tok L8W8JWT_SUCCESS → DecSafe env s p tok := hd.safe gd hr hx hn env.garbage
  obtain ⟨r, h', he, ⟨st, out, -, rfl⟩, -⟩ :=
    wp_iff_exists.mp (wp_decode (s := s) (h := h) hc hv ht false false (Or.inr rfl) (fun _ => False) (Or.inl safe))
  obtain ⟨ds, ha, hvw⟩ := outcome_answer gd hx hn out
  refine ⟨_, h', _, _, ds, he, ha, ?_, ?_, fun h1 => ?_, fun h1 => ?_⟩
  · unfold decOut; split <;> rfl
  · unfold decOut; split <;> rfl
  · rw [decOut, if_pos (by simp [h1])]
    exact ⟨rfl, rfl⟩
  · rw [decOut, if_neg (by simp [h1])]
    exact ⟨_, rfl, by rw [(hvw h1).length], hvw h1⟩

/-- The same for a caller that does not want the claims. -/
theorem C62_decode_flags (hc : CryptoOk env.crypto) (hv : validateDecodingParams env (some p) = L8W8JWT_SUCCESS) (ht : TokenMem p tok)
    (gd : s.good) (hr : VerKeyReadable p) (hx : ExpectOk p) (hn : NowOk env.now) (hd : DecDefined env p tok) (lenNull : Bool) :
    ∃ r h' rc v ds, decode env (some p) false true lenNull s h = .ok (r, h') ∧ Answer env p tok rc v ds ∧
      r = { rc := rc, validation := some v } := by
  have safe : SegCode p.alg tok L8W8JWT_SUCCESS → DecSafe env s p tok := hd.safe gd hr hx hn env.garbage
  obtain ⟨r, h', he, ⟨st, out, -, rfl⟩, -⟩ :=
    wp_iff_exists.mp (wp_decode (s := s) (h := h) hc hv ht true lenNull (Or.inl rfl) (fun _ => False) (Or.inl safe))
  obtain ⟨ds, ha, -⟩ := outcome_answer gd hx hn out
  exact ⟨_, h', _, _, ds, he, ha, by rw [decOut, if_pos (by simp)]⟩

/-- The same for `l8w8jwt_decode_raw`. -/
theorem C62_decodeRaw (hc : CryptoOk env.crypto) (hv : validateDecodingParams env (some p) = L8W8JWT_SUCCESS) (ht : TokenMem p tok)
    (gd : s.good) (hr : VerKeyReadable p) (hx : ExpectOk p) (hn : NowOk env.now) (hd : DecDefined env p tok) {x : RawArgs} (hb : x.bad = false) :
    ∃ r h' rc v ds, decodeRaw env (some p) false x s h = .ok (r, h') ∧ Answer env p tok rc v ds ∧ r.rc = rc ∧ r.validation = some v := by
  have safe : SegCode p.alg tok L8W8JWT_SUCCESS → DecSafe env s p tok := hd.safe gd hr hx hn env.garbage
  obtain ⟨r, h', he, ⟨st, out, rfl⟩, -⟩ :=
    wp_iff_exists.mp (wp_decodeRaw (s := s) (h := h) hc hv ht x hb (fun _ => False) (Or.inl safe))
  obtain ⟨ds, ha, -⟩ := outcome_answer gd hx hn out
  exact ⟨_, h', _, _, ds, he, ha, rfl, rfl⟩

/-! ## C63 -/

/-- The same system with other contents of uninitialised memory, possibly built for a small stack, at another time. -/
def Env.elsewhere (env : Env) (g : Nat → Tok) (b : Bool) (t : Int) : Env := { env with garbage := g, smallStack := b, now := t }

section same
variable {q : DecParams} {g : Nat → Tok} {b : Bool} {t : Int}

theorem verFails_elsewhere {alg : Int} {key msg : Bytes} {rc : Nat} (h : VerFails env alg key msg rc) :
    VerFails (env.elsewhere g b t) alg key msg rc := by
  cases h with
  | cert h1 => exact .cert h1
  | hash h1 h2 h3 h4 => exact .hash h1 h2 h3 h4
  | key h1 h2 h3 h4 h5 => exact .key h1 h2 h3 h4 h5
  | ec h1 h2 h3 h4 h5 => exact .ec (env := env.elsewhere g b t) h1 h2 h3 h4 h5
  | edOff h1 h2 h3 => exact .edOff h1 h2 h3
  | edKey h1 h2 h3 h4 => exact .edKey h1 h2 h3 h4

theorem pemKey_hmacKey (k : Bytes) : pemKey k = hmacKey k ++ [0] := by
  unfold pemKey hmacKey
  split
  · rename_i hz
    rw [List.getLast?_eq_some_iff] at hz
    obtain ⟨a, rfl⟩ := hz
    simp
  · rfl

theorem cString_hmacKey (k : Bytes) : cString k = cString (hmacKey k) := by
  unfold hmacKey
  split
  · rename_i hz
    rw [List.getLast?_eq_some_iff] at hz
    obtain ⟨a, rfl⟩ := hz
    rw [List.dropLast_concat]
    unfold cString
    rw [List.takeWhile_append]
    split
    · rename_i hl
      rw [(List.takeWhile_prefix (l := a) _).eq_of_length hl]
      simp
    · rfl
  · rfl

theorem certOk_key {c : Crypto} {k l : Bytes} (h : hmacKey k = hmacKey l) : CertOk c k = CertOk c l := by
  unfold CertOk
  rw [cString_hmacKey k, cString_hmacKey l, pemKey_hmacKey, pemKey_hmacKey, h]

theorem publicKey_key {c : Crypto} {k l : Bytes} (h : hmacKey k = hmacKey l) : PublicKey c k = PublicKey c l := by
  funext pk
  unfold PublicKey
  rw [cString_hmacKey k, cString_hmacKey l, pemKey_hmacKey, pemKey_hmacKey, h]

theorem verifies_key {alg : Int} {k l msg text : Bytes} (h : hmacKey k = hmacKey l) :
    Verifies env alg k msg text = Verifies env alg l msg text := by
  unfold Verifies
  simp only [certOk_key h, publicKey_key h, h]

theorem verFails_key {alg : Int} {k l msg : Bytes} {rc : Nat} (e : hmacKey k = hmacKey l) (h : VerFails env alg k msg rc) :
    VerFails env alg l msg rc := by
  cases h with
  | cert h1 => exact .cert (certOk_key e ▸ h1)
  | hash h1 h2 h3 h4 => exact .hash (certOk_key e ▸ h1) h2 h3 h4
  | key h1 h2 h3 h4 h5 => exact .key (certOk_key e ▸ h1) h2 h3 h4 (publicKey_key e ▸ h5)
  | ec h1 h2 h3 h4 h5 => exact .ec (certOk_key e ▸ h1) h2 h3 (publicKey_key e ▸ h4) h5
  | edOff h1 h2 h3 => exact .edOff (certOk_key e ▸ h1) h2 h3
  | edKey h1 h2 h3 h4 => exact .edKey (certOk_key e ▸ h1) h2 h3 (e ▸ h4)

theorem verifyFails_same (ha : p.alg = q.alg) (hk : hmacKey (verKey p) = hmacKey (verKey q)) {rc : Nat} (h : VerifyFails env p tok rc) : VerifyFails (env.elsewhere g b t) q tok rc := by
  obtain ⟨h1, x, y, z, h3, h4⟩ := h
  refine ⟨by rwa [← ha], x, y, z, h3, ?_⟩
  rw [← ha]
  exact verFails_elsewhere (verFails_key hk h4)

theorem _root_.L8w8jwt.Spec.SameRequest.symm (hs : SameRequest p q) : SameRequest q p :=
  ⟨hs.alg.symm, hs.key.symm, hs.iss.symm, hs.sub.symm, hs.aud.symm, hs.jti.symm, ⟨hs.exp.1.symm, hs.exp.2.symm⟩,
    ⟨hs.nbf.1.symm, hs.nbf.2.symm⟩, ⟨hs.iat.1.symm, hs.iat.2.symm⟩, ⟨hs.typ.1.symm, hs.typ.2.symm⟩⟩

theorem verifyFails_same' (ha : p.alg = q.alg) (hk : hmacKey (verKey p) = hmacKey (verKey q)) {rc : Nat} (h : VerifyFails (env.elsewhere g b t) q tok rc) : VerifyFails env p tok rc :=
  verifyFails_same (env := env.elsewhere g b t) (g := env.garbage) (b := env.smallStack) (t := env.now) ha.symm hk.symm h

theorem decCode_same (ha : p.alg = q.alg) (hk : hmacKey (verKey p) = hmacKey (verKey q)) {rc : Nat} (h : DecCode env p tok rc) :
    DecCode (env.elsewhere g b t) q tok rc := by
  cases h with
  | segments h1 h2 => exact .segments (ha ▸ h1) h2
  | verify h1 h2 => exact .verify (ha ▸ h1) (verifyFails_same ha hk h2)
  | claims h1 h2 h3 h4 => exact .claims (ha ▸ h1) (fun rc hx => h2 rc (verifyFails_same' ha hk hx)) h3 h4
  | done h1 h2 h3 h4 h5 => exact .done (ha ▸ h1) (fun rc hx => h2 rc (verifyFails_same' ha hk hx)) h3 h4 h5

theorem badSignature_same (ha : p.alg = q.alg) (hk : hmacKey (verKey p) = hmacKey (verKey q)) (h : BadSignature env p tok) :
    BadSignature (env.elsewhere g b t) q tok := by
  obtain ⟨h1, h2, x, y, z, h3, h4⟩ := h
  refine ⟨ha ▸ h1, ha ▸ h2, x, y, z, h3, fun hv => h4 ?_⟩
  rw [ha, verifies_key hk]
  exact hv

theorem badSignature_same' (ha : p.alg = q.alg) (hk : hmacKey (verKey p) = hmacKey (verKey q))
    (h : BadSignature (env.elsewhere g b t) q tok) : BadSignature env p tok :=
  badSignature_same (env := env.elsewhere g b t) (g := env.garbage) (b := env.smallStack) (t := env.now) ha.symm hk.symm h

theorem strFails_expected (find : Bytes → Option DClaim) (name : String) {e e' : Option Bytes} {n n' : Nat} (h : expected e n = expected e' n') :
    strFails find name e n = strFails find name e' n' := by
  unfold expected at h
  cases e with
  | none =>
    cases e' with
    | none => rfl
    | some _ => cases h
  | some x =>
    cases e' with
    | none => cases h
    | some y =>
      simp only [Option.map_some, Option.some.injEq] at h
      simp only [strFails, h]

theorem typFails_expected (find : Bytes → Option DClaim) {e e' : Option Bytes} {n : Nat} (h : e.map cString = e'.map cString) :
    typFails find e n = typFails find e' n := by
  cases e with
  | none =>
    cases e' with
    | none => rfl
    | some _ => cases h
  | some x =>
    cases e' with
    | none => cases h
    | some y =>
      simp only [Option.map_some, Option.some.injEq] at h
      simp only [typFails, h]

theorem claimFlags_same (hs : SameRequest p q) (find : Bytes → Option DClaim) (now : Int) : claimFlags find now p = claimFlags find now q := by
  unfold claimFlags
  rw [strFails_expected find "iss" hs.iss, strFails_expected find "sub" hs.sub, strFails_expected find "aud" hs.aud,
    strFails_expected find "jti" hs.jti, hs.exp.1, hs.exp.2, hs.nbf.1, hs.nbf.2, hs.iat.1, hs.iat.2, hs.typ.2,
    typFails_expected find hs.typ.1]

/-- With the same key and algorithm, only the flags of the claims can differ. -/
theorem answer_other (ha : p.alg = q.alg) (hk : hmacKey (verKey p) = hmacKey (verKey q)) {rc : Nat} {v : BitVec 32} {ds : List DClaim}
    (h : Answer env p tok rc v ds) :
    (rc ≠ Code.success ∧ Answer (env.elsewhere g b t) q tok rc v ds) ∨
    ∃ x : BitVec 32, (x = 0 ∨ x = 128) ∧ v = x ||| claimFlags (fun n => claimStarting n ds) env.now p ∧
      Answer (env.elsewhere g b t) q tok rc (x ||| claimFlags (fun n => claimStarting n ds) t q) ds := by
  cases h with
  | failed h1 h2 => exact Or.inl ⟨h2, .failed (decCode_same ha hk h1) h2⟩
  | good h1 h2 h3 h4 h5 =>
    refine Or.inr ⟨0, Or.inl rfl, (zeroOr _).symm, ?_⟩
    rw [zeroOr]
    exact .good (decCode_same ha hk h1) h2 h3 h4 (fun hx => h5 (badSignature_same' ha hk hx))
  | bad h1 h2 h3 h4 h5 =>
    exact Or.inr ⟨128, Or.inr rfl, rfl, .bad (decCode_same ha hk h1) h2 h3 h4 (badSignature_same ha hk h5)⟩

theorem answer_same (hs : SameRequest p q) {rc : Nat} {v : BitVec 32} {ds : List DClaim} (h : Answer env p tok rc v ds) :
    Answer (env.elsewhere g b env.now) q tok rc v ds := by
  rcases answer_other (g := g) (b := b) (t := env.now) hs.alg hs.key h with ⟨-, h⟩ | ⟨x, -, h1, h2⟩
  · exact h
  · rw [← claimFlags_same hs, ← h1] at h2
    exact h2

theorem decode_answer (hc : CryptoOk env.crypto) (ht : TokenMem p tok) (gd : s.good) (hx : ExpectOk p) (hn : NowOk env.now)
    (hv : validateDecodingParams env (some p) = L8W8JWT_SUCCESS) {r : DecOut}
    (he : decode env (some p) false false false s h = .ok (r, h')) : ∃ v ds, Answer env p tok r.rc v ds ∧ r.validation = some v ∧
      (r.rc = L8W8JWT_SUCCESS → ∃ arr, r.claims = some arr ∧ Views arr.items ds) := by
  rcases decode_returns he with ⟨-, -, -, hbad⟩ | ⟨p1, st, g1, hp, -, -, -, hb, rfl⟩
  · exfalso
    rcases hbad with hn | hn | hn
    · exact hn hv
    · cases hn
    · simp at hn
  · cases hp
    obtain ⟨ds, ha, hvw⟩ := outcome_answer gd hx hn (outcome_of hc hv ht hb)
    have e1 : (decOut false st).rc = st.rc := by unfold decOut; split <;> rfl
    have e2 : (decOut false st).validation = some st.validation := by unfold decOut; split <;> rfl
    refine ⟨_, ds, by rw [e1]; exact ha, e2, fun hr => ?_⟩
    rw [e1] at hr
    rw [decOut, if_neg (by simp [hr])]
    exact ⟨_, rfl, hvw hr⟩

/-- C63: the result is determined by the token and by what is asked for: two runs, in whatever memory, with any contents of
uninitialised memory, with the key or the token passed with or without counting their terminator, and whether or not the library
is built for small stacks, give the same code, the same validation result and the same claims. -/
theorem C63_same_result (hc : CryptoOk env.crypto) (hs : SameRequest p q) (ht : TokenMem p tok) (ht' : TokenMem q tok)
    (hv : validateDecodingParams env (some p) = L8W8JWT_SUCCESS) (hv' : validateDecodingParams env (some q) = L8W8JWT_SUCCESS)
    (hx : ExpectOk p) (hx' : ExpectOk q) (hn : NowOk env.now) {s' : Sched} (gd : s.good) (gd' : s'.good) {k k' : Heap} {r r' : DecOut}
    (he : decode env (some p) false false false s h = .ok (r, h'))
    (he' : decode (env.elsewhere g b env.now) (some q) false false false s' k = .ok (r', k')) :
    r.rc = r'.rc ∧ r.validation = r'.validation ∧
      (r.rc = L8W8JWT_SUCCESS → ∃ ds arr arr', r.claims = some arr ∧ r'.claims = some arr' ∧ Views arr.items ds ∧ Views arr'.items ds) := by
  obtain ⟨v, ds, a1, a2, a3⟩ := decode_answer hc ht gd hx hn hv he
  obtain ⟨v', ds', b1, b2, b3⟩ := decode_answer (env := env.elsewhere g b env.now) hc ht' gd' hx' hn hv' he'
  obtain ⟨e1, rfl, rfl⟩ := answer_unique (answer_same (g := g) (b := b) hs a1) b1
  refine ⟨e1, a2.trans b2.symm, fun hr => ?_⟩
  obtain ⟨arr, c1, c2⟩ := a3 hr
  obtain ⟨arr', d1, d2⟩ := b3 (e1 ▸ hr)
  exact ⟨ds, arr, arr', c1, d1, c2, d2⟩

/-! ## C34 for whole calls -/

/-- C34: decoding the same token later, with tolerances that are not smaller for `nbf`, `iat` and not greater for `exp`, gives the same
code; an expired token stays expired, and a token whose `nbf`, `iat` are accepted stays so. -/
theorem C34_decode_later (hc : CryptoOk env.crypto) (ht : TokenMem p tok) (hx : ExpectOk p) (hn : NowOk env.now) (hn' : NowOk t) (hle : env.now ≤ t)
    {e n i e' n' i' : UInt8} (h1 : e' ≤ e) (h2 : n ≤ n') (h3 : i ≤ i') {s' : Sched} (gd : s.good) (gd' : s'.good) {k k' : Heap} {r r' : DecOut}
    (hv : validateDecodingParams env (some p) = L8W8JWT_SUCCESS)
    (he : decode env (some (withTol p e n i)) false false false s h = .ok (r, h'))
    (he' : decode (env.elsewhere g b t) (some (withTol p e' n' i')) false false false s' k = .ok (r', k')) :
    r.rc = r'.rc ∧ ∃ v v', r.validation = some v ∧ r'.validation = some v' ∧
      (v &&& L8W8JWT_EXP_FAILURE ≠ 0 → v' &&& L8W8JWT_EXP_FAILURE ≠ 0) ∧
      (v' &&& L8W8JWT_NBF_FAILURE ≠ 0 → v &&& L8W8JWT_NBF_FAILURE ≠ 0) ∧
      (v' &&& L8W8JWT_IAT_FAILURE ≠ 0 → v &&& L8W8JWT_IAT_FAILURE ≠ 0) := by
  obtain ⟨v, ds, a1, a2, -⟩ := decode_answer (p := withTol p e n i) hc ht gd hx hn hv he
  obtain ⟨v', ds', b1, b2, -⟩ := decode_answer (env := env.elsewhere g b t) (p := withTol p e' n' i') hc ht gd' hx hn' hv he'
  rcases answer_other (p := withTol p e n i) (q := withTol p e' n' i') (g := g) (b := b) (t := t) rfl rfl a1 with ⟨-, h⟩ | ⟨x, hx, c1, c2⟩
  · obtain ⟨e1, rfl, rfl⟩ := answer_unique h b1
    exact ⟨e1, v, v, a2, b2, id, id, id⟩
  · obtain ⟨e1, e2, rfl⟩ := answer_unique c2 b1
    refine ⟨e1, v, v', a2, b2, ?_⟩
    subst e2
    subst c1
    have bits : ∀ f : BitVec 32, ((x ||| f) &&& 16 ≠ 0 ↔ f &&& 16 ≠ 0) ∧ ((x ||| f) &&& 32 ≠ 0 ↔ f &&& 32 ≠ 0) ∧ ((x ||| f) &&& 64 ≠ 0 ↔ f &&& 64 ≠ 0) := by
      intro f
      rcases hx with rfl | rfl
      · rw [zeroOr]; exact ⟨Iff.rfl, Iff.rfl, Iff.rfl⟩
      · have : ∀ m : BitVec 32, 128 &&& m = 0 → (128 ||| f) &&& m = f &&& m := by
          intro m hm
          rw [BitVec.and_or_distrib_right, hm]; exact zeroOr _
        rw [this 16 (by decide), this 32 (by decide), this 64 (by decide)]
        exact ⟨Iff.rfl, Iff.rfl, Iff.rfl⟩
    refine ⟨fun hx => ?_, fun hx => ?_, fun hx => ?_⟩
    · exact (bits _).1.mpr ((flag_bits ..).2.2.2.2.1.mpr (lateFails_mono hle h1 ((flag_bits ..).2.2.2.2.1.mp ((bits _).1.mp hx))))
    · exact (bits _).2.1.mpr ((flag_bits ..).2.2.2.2.2.1.mpr (earlyFails_mono hle h2 ((flag_bits ..).2.2.2.2.2.1.mp ((bits _).2.1.mp hx))))
    · exact (bits _).2.2.mpr ((flag_bits ..).2.2.2.2.2.2.1.mpr (earlyFails_mono hle h3 ((flag_bits ..).2.2.2.2.2.2.1.mp ((bits _).2.2.mp hx))))

/-- C34: raising tolerances never adds flags. -/
theorem C34_decode_tolerance (hc : CryptoOk env.crypto) (ht : TokenMem p tok) (hx : ExpectOk p) (hn : NowOk env.now)
    {e n i e' n' i' : UInt8} (h1 : e ≤ e') (h2 : n ≤ n') (h3 : i ≤ i') {s' : Sched} (gd : s.good) (gd' : s'.good) {k k' : Heap} {r r' : DecOut}
    (hv : validateDecodingParams env (some p) = L8W8JWT_SUCCESS)
    (he : decode env (some (withTol p e n i)) false false false s h = .ok (r, h'))
    (he' : decode env (some (withTol p e' n' i')) false false false s' k = .ok (r', k')) :
    r.rc = r'.rc ∧ ∃ v v', r.validation = some v ∧ r'.validation = some v' ∧ (r.rc = L8W8JWT_SUCCESS → v' &&& ~~~v = 0) := by
  obtain ⟨v, ds, a1, a2, -⟩ := decode_answer (p := withTol p e n i) hc ht gd hx hn hv he
  obtain ⟨v', ds', b1, b2, -⟩ := decode_answer (p := withTol p e' n' i') hc ht gd' hx hn hv he'
  rcases answer_other (p := withTol p e n i) (q := withTol p e' n' i') (g := env.garbage) (b := env.smallStack) (t := env.now) rfl rfl a1
    with ⟨hne, h⟩ | ⟨x, hx, c1, c2⟩
  · obtain ⟨e1, rfl, rfl⟩ := answer_unique h b1
    exact ⟨e1, v, v, a2, b2, fun h => absurd h hne⟩
  · obtain ⟨e1, e2, rfl⟩ := answer_unique c2 b1
    refine ⟨e1, v, v', a2, b2, fun _ => ?_⟩
    subst e2
    subst c1
    have key := claimFlags_tol (fun n => claimStarting n ds) env.now p h1 h2 h3
    generalize claimFlags (fun n => claimStarting n ds) env.now (withTol p e n i) = f at key ⊢
    generalize claimFlags (fun n => claimStarting n ds) env.now (withTol p e' n' i') = f' at key ⊢
    apply BitVec.eq_of_getLsbD_eq
    intro j hj
    have := congrArg (fun z : BitVec 32 => z.getLsbD j) key
    simp only [BitVec.getLsbD_and, BitVec.getLsbD_or, BitVec.getLsbD_not, hj, decide_true, Bool.true_and] at this ⊢
    revert this
    generalize x.getLsbD j = a
    generalize f.getLsbD j = b
    generalize f'.getLsbD j = c
    cases a <;> cases b <;> cases c <;> simp

end same

/-- A token with a wrong signature and a claim that is not the expected one: the flags of the answer are those of the signature and of
the issuer. -/
def lateTok : Bytes := mkTok hdr1 "{\"iss\":\"you\"}" (List.replicate 32 7)
def lateDec : DecParams := { toyDec lateTok with validateIss := some (str "me" ++ [0]) }

example : ∃ ds, Answer toy lateDec lateTok 0 129 ds := by
  obtain ⟨r, h', he, hr, hv⟩ := verdict_run (p := lateDec) (rc := 0) (v := some 129) (by decide +kernel)
  have hx : ExpectOk lateDec := by
    refine ⟨fun e h => ?_, fun e h => ?_, fun e h => ?_, fun e h => ?_, fun e h => ?_⟩ <;> cases h
    exact show (0 : UInt8) ∈ _ by decide
  have h0 : (0 : UInt8) ∉ lateTok := by decide +kernel
  obtain ⟨v, ds, ha, h2, -⟩ := decode_answer (tok := lateTok) toyOk ⟨⟨[], rfl⟩, h0, Or.inl rfl, by decide +kernel⟩ ⟨fun _ => rfl, fun _ => rfl⟩
    hx ⟨by decide, by decide⟩ (by decide +kernel) he
  rw [hv] at h2
  cases h2
  rw [hr] at ha
  exact ⟨ds, ha⟩

/-- The same request in different memory: lengths with and without terminator, other bytes behind. -/
example : SameRequest lateDec { lateDec with
    validateIss := some (str "mean")
    validateIssLength := 2
    jwt := some (lateTok ++ 0 :: str "junk")
    verificationKey := some (str "secret" ++ [0, 1, 2])
    verificationKeyLength := 7 } :=
  ⟨rfl, by decide +kernel, by decide, rfl, rfl, rfl, ⟨rfl, rfl⟩, ⟨rfl, rfl⟩, ⟨rfl, rfl⟩, rfl, rfl⟩

/-- A token that is expired and not yet valid (the time is 1000), and is accepted with sufficient tolerances. -/
example : (let pay := "{\"exp\":900,\"nbf\":1010}"; let p := { toyDec (mkTok hdr1 pay (toyMac hdr1 pay)) with validateExp := true, validateNbf := true }
    [(0, 0), (99, 10), (100, 9), (100, 10)].map fun x => verdict (withTol p x.1 x.2 0)) =
    [some (0, some 48), some (0, some 16), some (0, some 32), some (0, some 0)] := by decide +kernel

end L8w8jwt
