import Verif.Props.Codes
/-!
# Property C61: exactly when decoding is defined
-/

namespace L8w8jwt
open Spec

variable {s : Sched} {h h' : Heap} {env : Env} {p : DecParams} {tok : Bytes}

theorem roomy_of_claimsIn {a : Bytes} (hd : ∀ g, ∃ x, claimsIn (env.slack g) a = .ok x) : Roomy env.checknum (readText a) := by
  intro ok ds n b hp
  by_cases hx : b = .none
  · rw [hx]; trivial
  by_cases hn : 64 ≤ n
  · obtain ⟨x, e⟩ := hd fun _ => ⟨.undefined, 0, 0⟩
    obtain ⟨vend, -, e'⟩ := claimsIn_parsed (env := env.slack fun _ => ⟨.undefined, 0, 0⟩) hp
    rw [overread_look hx hn, e] at e'
    cases e'
  cases b with
  | none => trivial
  | one => exact show n ≤ 63 by omega
  | two =>
    by_cases h63 : n = 63
    · subst h63
      obtain ⟨x, e⟩ := hd fun _ => ⟨.undefined, 0, 0⟩
      obtain ⟨vend, hv, e'⟩ := claimsIn_parsed (env := env.slack fun _ => ⟨.undefined, 0, 0⟩) hp
      have h2 : skipNested (env.slack fun _ => ⟨.undefined, 0, 0⟩) (slots 63) 63 vend [] =
          if (0 : Int) ≤ vend then .error .oobRead else .ok [] := rfl
      simp only [lookBehind, h2, if_pos hv.1] at e'
      rw [e] at e'
      cases e'
    · exact show n ≤ 62 by omega

/-- Verification does not depend on the slots. -/
theorem verFails_slack {g : Nat → Tok} {alg : Int} {key msg : Bytes} {rc : Nat} :
    VerFails (env.slack g) alg key msg rc ↔ VerFails env alg key msg rc := by
  constructor
  · intro h
    cases h with
    | cert h1 => exact .cert h1
    | hash h1 h2 h3 h4 => exact .hash h1 h2 h3 h4
    | key h1 h2 h3 h4 h5 => exact .key h1 h2 h3 h4 h5
    | ec h1 h2 h3 h4 h5 => exact .ec h1 h2 h3 h4 h5
    | edOff h1 h2 h3 => exact .edOff h1 h2 h3
    | edKey h1 h2 h3 h4 => exact .edKey h1 h2 h3 h4
  · intro h
    cases h with
    | cert h1 => exact .cert h1
    | hash h1 h2 h3 h4 => exact .hash h1 h2 h3 h4
    | key h1 h2 h3 h4 h5 => exact .key h1 h2 h3 h4 h5
    | ec h1 h2 h3 h4 h5 => exact .ec (env := env.slack g) h1 h2 h3 h4 h5
    | edOff h1 h2 h3 => exact .edOff h1 h2 h3
    | edKey h1 h2 h3 h4 => exact .edKey h1 h2 h3 h4

theorem verDefined_slack {g : Nat → Tok} {msg text : Bytes} : VerDefined (env.slack g) p msg text ↔ VerDefined env p msg text :=
  ⟨fun ⟨a, b, c, d, e, f, i⟩ => ⟨a, b, c, d, e, f, i⟩, fun ⟨a, b, c, d, e, f, i⟩ => ⟨a, b, c, d, e, f, i⟩⟩

theorem verifyFails_slack {g : Nat → Tok} {rc : Nat} : VerifyFails (env.slack g) p tok rc ↔ VerifyFails env p tok rc := by
  unfold VerifyFails
  simp only [verFails_slack]

/-- The conditions suffice. -/
theorem _root_.L8w8jwt.Spec.DecDefined.safe (gd : s.good) (hr : VerKeyReadable p) (hx : ExpectOk p) (hn : NowOk env.now)
    (hd : DecDefined env p tok) (g : Nat → Tok) (hs : SegCode p.alg tok L8W8JWT_SUCCESS) : DecSafe (env.slack g) s p tok := by
  obtain ⟨h1, h2⟩ := hd hs
  have hv : (∀ rc, ¬ VerifyFails (env.slack g) p tok rc) → ∀ rc, ¬ VerifyFails env p tok rc :=
    fun hv rc hf => hv rc (verifyFails_slack.mpr hf)
  refine ⟨Or.inr gd.1, hr, fun ha a b c h3 => verDefined_slack.mpr (h1 ha a b c h3), fun hf a b hp => ?_, fun hf a b hp => ?_, hx, hn,
    fun hf => Or.inr (Or.inr ⟨Or.inl gd.grow, fun a b ds1 ds2 hp e1 e2 => ?_⟩)⟩
  · exact claimsIn_roomy (env := env.slack g) (h2 (hv hf) a b hp).1
  · by_cases ha : Accepts env a true
    · exact Or.inl (claimsIn_roomy (env := env.slack g) ((h2 (hv hf) a b hp).2.1 ha))
    · refine Or.inr fun ds he => ha ?_
      rcases claimsIn_accepts he with ⟨-, h⟩ | ⟨h, -⟩
      · exact h
      · exact absurd rfl h
  · obtain ⟨ok1, n1, b1, p1, q1, -⟩ := claimsIn_ok e1
    obtain ⟨ok2, n2, b2, p2, q2, -⟩ := claimsIn_ok e2
    have o1 : ok1 = true := by cases ok1 with | true => rfl | false => exact absurd q1 (by decide)
    have o2 : ok2 = true := by cases ok2 with | true => rfl | false => exact absurd q2 (by decide)
    subst o1; subst o2
    exact (h2 (hv hf) a b hp).2.2 _ _ _ _ _ _ p1 p2

/-- What a run that returns shows. -/
theorem outcome_defined (gd : s.good) (hx : ExpectOk p) (hn : NowOk env.now) {st : DecState} (ho : Outcome env s p tok st)
    (hs : SegCode p.alg tok L8W8JWT_SUCCESS) :
    (p.alg ≠ -1 → ∀ a b c, ThreeParts tok a b c → VerDefined env p (a ++ 46 :: b) c) ∧
    ((∀ rc, ¬ VerifyFails env p tok rc) → ∀ a b, Parts tok a b → (∃ x, claimsIn env a = .ok x) ∧
      ∀ ds1, claimsIn env a = .ok (L8W8JWT_SUCCESS, ds1) → (∃ x, claimsIn env b = .ok x) ∧
        ∀ ds2, claimsIn env b = .ok (L8W8JWT_SUCCESS, ds2) → TypDefined env p (ds1 ++ ds2)) := by
  have ver : ∀ {r}, Sig env p tok r → p.alg ≠ -1 → ∀ a b c, ThreeParts tok a b c → VerDefined env p (a ++ 46 :: b) c := by
    rintro r (⟨h1, -⟩ | ⟨-, a, b, c, d, h3, ⟨-, hd⟩, -⟩) ha a' b' c' h3'
    · exact absurd h1 ha
    · obtain ⟨rfl, rfl, rfl⟩ := three_unique h3 h3'
      exact hd
  cases ho with
  | oom hf => exact absurd gd.1 hf
  | segs hi hc =>
    exact absurd (SegCode_unique (hi.code.resolve_right (fun hx => hx.2 gd.1)) hs) hc
  | verify hi hc hsig => exact ⟨ver hsig, fun hf => absurd (sig_verifyFails hsig) (hf _)⟩
  | claims hi hc hsig hp hcl =>
    refine ⟨ver hsig, fun _ a' b' hp' => ?_⟩
    obtain ⟨rfl, rfl⟩ := parts_unique hp hp'
    rcases hcl gd.1 with ⟨rc, ds, e, hne⟩ | ⟨ds1, rc, ds, e1, e2, hne⟩
    · refine ⟨⟨_, e⟩, fun ds1 e' => ?_⟩
      rw [e] at e'
      injection e' with e'
      injection e' with e'
      exact absurd e' hne
    · refine ⟨⟨_, e1⟩, fun _ _ => ⟨⟨_, e2⟩, fun ds2 e' => ?_⟩⟩
      rw [e2] at e'
      injection e' with e'
      injection e' with e'
      exact absurd e' hne
  | done hi hc hsig hp hvw hcl hval =>
    refine ⟨ver hsig, fun _ a' b' hp' => ?_⟩
    obtain ⟨rfl, rfl⟩ := parts_unique hp hp'
    obtain ⟨e1, e2⟩ := hcl (Or.inl gd.grow)
    refine ⟨⟨_, e1⟩, fun ds1 e1' => ⟨⟨_, e2⟩, fun ds2 e2' => ?_⟩⟩
    rw [e1] at e1'
    rw [e2] at e2'
    cases e1'
    cases e2'
    exact (validateClaims_ok_iff hvw hx hn _).mp ⟨_, hval⟩

/-- The conditions are necessary. -/
theorem defined_of_outcomes (gd : s.good) (hx : ExpectOk p) (hn : NowOk env.now)
    (ho : ∀ g, ∃ st, Outcome (env.slack g) s p tok st) : DecDefined env p tok := by
  intro hs
  have key := fun g => (ho g).elim fun st h => outcome_defined (env := env.slack g) gd hx hn h hs
  have hv : (∀ rc, ¬ VerifyFails env p tok rc) → ∀ g rc, ¬ VerifyFails (env.slack g) p tok rc :=
    fun hv g rc hf => hv rc (verifyFails_slack.mp hf)
  refine ⟨fun ha a b c h3 => verDefined_slack.mp ((key env.garbage).1 ha a b c h3), fun hf a b hp => ?_⟩
  have ra : Roomy env.checknum (readText a) := roomy_of_claimsIn fun g => ((key g).2 (hv hf g) a b hp).1
  have acc : ∀ {ds n k}, Parsed env.checknum (readText a) true ds n k → ∀ g, claimsIn (env.slack g) a = .ok (L8W8JWT_SUCCESS, ds) := by
    intro ds n k hpa g
    obtain ⟨vend, -, e⟩ := claimsIn_parsed (env := env.slack g) hpa
    rw [fits_look (ra _ _ _ _ hpa)] at e
    exact e
  have rb : Accepts env a true → Roomy env.checknum (readText b) := by
    rintro ⟨ds, n, k, hpa⟩
    exact roomy_of_claimsIn fun g => (((key g).2 (hv hf g) a b hp).2 ds (acc hpa g)).1
  refine ⟨ra, rb, fun ds1 n1 b1 ds2 n2 b2 p1 p2 => ?_⟩
  have e1 := acc p1 env.garbage
  have e2 : claimsIn (env.slack env.garbage) b = .ok (L8W8JWT_SUCCESS, ds2) := by
    obtain ⟨vend, -, e⟩ := claimsIn_parsed (env := env.slack env.garbage) p2
    rw [fits_look (rb ⟨_, _, _, p1⟩ _ _ _ _ p2)] at e
    exact e
  exact (((key env.garbage).2 (hv hf _) a b hp).2 ds1 e1).2 ds2 e2

/-- C61: exactly when `l8w8jwt_decode` is defined whatever the uninitialised slots of the token array contain: for valid parameters
with readable memory, and without allocation failures. -/
theorem C61_decode_defined (hc : CryptoOk env.crypto) (hv : validateDecodingParams env (some p) = L8W8JWT_SUCCESS) (ht : TokenMem p tok)
    (gd : s.good) (hr : VerKeyReadable p) (hx : ExpectOk p) (hn : NowOk env.now) {a b : Bool} (hab : a = true ∨ b = false) :
    (∀ g, ∃ y, decode (env.slack g) (some p) false a b s h = .ok y) ↔ DecDefined env p tok := by
  constructor
  · intro hd
    refine defined_of_outcomes gd hx hn fun g => ?_
    obtain ⟨⟨r, h'⟩, he⟩ := hd g
    rcases decode_returns he with ⟨-, -, -, hbad⟩ | ⟨p1, st, g1, hp, -, -, -, hb, rfl⟩
    · exfalso
      rcases hbad with hn | hn | hn
      · exact hn hv
      · cases hn
      · rcases hab with h1 | h1 <;> rw [h1] at hn <;> simp at hn
    · cases hp
      exact ⟨st, outcome_of (env := env.slack g) hc hv ht hb⟩
  · intro hd g
    obtain ⟨r, h', he, -⟩ := wp_iff_exists.mp (wp_decode (env := env.slack g) (s := s) (h := h) hc hv ht a b hab (fun _ => False)
      (Or.inl (hd.safe gd hr hx hn g)))
    exact ⟨_, he⟩

/-- C61: the same for `l8w8jwt_decode_raw`. -/
theorem C61_decodeRaw_defined (hc : CryptoOk env.crypto) (hv : validateDecodingParams env (some p) = L8W8JWT_SUCCESS) (ht : TokenMem p tok)
    (gd : s.good) (hr : VerKeyReadable p) (hx : ExpectOk p) (hn : NowOk env.now) {x : RawArgs} (hb : x.bad = false) :
    (∀ g, ∃ y, decodeRaw (env.slack g) (some p) false x s h = .ok y) ↔ DecDefined env p tok := by
  constructor
  · intro hd
    refine defined_of_outcomes gd hx hn fun g => ?_
    obtain ⟨⟨r, h'⟩, he⟩ := hd g
    rcases decodeRaw_returns he with ⟨-, -, -, hbad⟩ | ⟨p1, st, g1, hp, -, -, -, hb', rfl⟩
    · exfalso
      rcases hbad with hn | hn | hn
      · exact hn hv
      · cases hn
      · rw [hb] at hn; cases hn
    · cases hp
      exact ⟨st, outcome_of (env := env.slack g) hc hv ht hb'⟩
  · intro hd g
    obtain ⟨r, h', he, -⟩ := wp_iff_exists.mp (wp_decodeRaw (env := env.slack g) (s := s) (h := h) hc hv ht x hb (fun _ => False)
      (Or.inl (hd.safe gd hr hx hn g)))
    exact ⟨_, he⟩

/-- C61: exactly when checking a signature is defined. -/
theorem C61_verify_defined (hc : CryptoOk env.crypto) (hv : validateDecodingParams env (some p) = L8W8JWT_SUCCESS) (ht : TokenMem p tok)
    (hr : VerKeyReadable p) {a b c d : Bytes} (h3 : ThreeParts tok a b c) (hd : b64Decode true c = some d) :
    (∃ r, verifyBody env p (segBuf c) d.length = .ok r) ↔ VerDefined env p (a ++ 46 :: b) c := by
  rw [verifyBody_defined_iff hc hv ht h3 hd]
  exact ⟨And.right, fun h => ⟨hr, h⟩⟩

/-- The conditions fail for a token with a signature of one byte (`verdict` is `none`), but not if the key looks like a
certificate: then the signature is not looked at. -/
example : verdict (toyDec (mkTok hdr1 pay1 [1])) = none ∧
    verdict { toyDec (mkTok hdr1 pay1 [1]) with
      verificationKey := some (str "-----BEGIN CERTIFICATE-----"), verificationKeyLength := 27 } = some (Code.keyParse, some 0xffffffff#32) := by
  decide +kernel

/-- The comparison of types with a byte that is not ASCII: reached, not reached because of the length, not reached because of an
earlier difference. -/
example : ReachesHigh (str "jw" ++ [233]) (str "JWT") 3 ∧ ¬ ReachesHigh (str "jw" ++ [233]) (str "JWT") 2 ∧
    ¬ ReachesHigh (str "jx" ++ [233]) (str "JWT") 3 := by
  refine ⟨⟨2, 233, by decide, by decide, Or.inl rfl, by decide, by decide⟩, ?_, ?_⟩
  · rintro ⟨i, c, hi, -, h3, h4, -⟩
    have : i = 0 ∨ i = 1 := by omega
    rcases this with rfl | rfl
    · rcases h3 with h3 | h3 <;> cases h3 <;> exact absurd h4 (by decide)
    · rcases h3 with h3 | h3 <;> cases h3 <;> exact absurd h4 (by decide)
  · rintro ⟨i, c, hi, h2, h3, h4, -⟩
    have : i = 0 ∨ i = 1 ∨ i = 2 := by omega
    rcases this with rfl | rfl | rfl
    · rcases h3 with h3 | h3 <;> cases h3 <;> exact absurd h4 (by decide)
    · rcases h3 with h3 | h3 <;> cases h3 <;> exact absurd h4 (by decide)
    · exact absurd h2 (by decide)

/-- The same in the decoder. -/
example : verdict { toyDec (mkTokB (str "{\"typ\":\"jx" ++ [195, 164] ++ str "\"}") (str pay1) (List.replicate 32 65)) with
      validateTyp := some (str "JWT" ++ [0]), validateTypLength := 3 } = some (0, some 0x180#32) ∧
    verdict { toyDec (mkTokB (str "{\"typ\":\"jw" ++ [195, 164] ++ str "\"}") (str pay1) (List.replicate 32 65)) with
      validateTyp := some (str "JWT" ++ [0]), validateTypLength := 3 } = none := by
  decide +kernel

end L8w8jwt
