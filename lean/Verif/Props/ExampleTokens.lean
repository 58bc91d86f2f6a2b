import Verif.Props.ExampleDecode
import Verif.Props.EndToEnd
/-!
# C85, C86: the programs examples/*/decode.c with their tokens, and with those of examples/*/encode.c
-/

namespace L8w8jwt.C

open Spec

variable {env : Env} {fuel : Nat} {s : Sched} {alg : Int} {key jwt : Bytes} {name name' n : String} {nbf typ : Bool} {sch : Scheme} {num : Bytes → Nat} {t : Int}

/-! ## What the tokens say -/

/-- The claims of header and payload. -/
def exHeaderClaims (n : String) : List DClaim := headerClaimsOf n ++ [⟨str "kid", str "some-key-id-here-012345", 0⟩]

def exPayloadClaims (t : Int) : List DClaim :=
  [⟨str "iat", intText t, 1⟩, ⟨str "exp", intText (t + 600), 1⟩, ⟨str "sub", str "Gordon Freeman", 0⟩, ⟨str "iss", str "Black Mesa", 0⟩,
   ⟨str "aud", str "Administrator", 0⟩, ⟨str "ctx", str "Unforseen Consequences", 0⟩, ⟨str "age", str "27", 1⟩,
   ⟨str "size", str "1.85", 2⟩, ⟨str "alive", str "true", 3⟩, ⟨str "nulltest", str "null", 4⟩]

/-- `checknum` tells integers and other numbers apart, as far as these tokens have any. -/
structure NumsOk (num : Bytes → Nat) : Prop where
  ints : IntsOk num
  age : num (str "27") = 1
  size : num (str "1.85") = 2

/-- A time at which a token can be issued. -/
def TimeOk (t : Int) : Prop := 0 < t ∧ t + 600 < 9223372036854775808

theorem exHonest (hn : NumsOk num) (alg : Int) (key : Bytes) (t : Int) :
    ClaimsHonest num (exRequest alg key t).headerClaims (exRequest alg key t).headerClaimsCount ∧
      ClaimsHonest num (exRequest alg key t).payloadClaims (exRequest alg key t).payloadClaimsCount := by
  have quoted : ∀ k v : String, (arg (str k ++ [0]) (str k).length).all plainChar = true → (arg (str v ++ [0]) (str v).length).all plainChar = true →
      ∀ m, member (exClaim k v 0) = some m → (arg m.key m.keyLength).all plainChar = true ∧
      (m.isString = true → (arg m.value m.valueLength).all plainChar = true) ∧
      (m.isString = false → JText .value (arg m.value m.valueLength) ∧ valueType num (arg m.value m.valueLength) = some (exClaim k v 0).type) := by
    intro k v h1 h2 m hm
    cases hm
    exact ⟨h1, fun _ => h2, fun h => by cases h⟩
  have plain : ∀ (k v : String) (ty : Int), ty ≠ 0 → (arg (str k ++ [0]) (str k).length).all plainChar = true →
      arg (str v ++ [0]) (str v).length = str v → JText .value (str v) → valueType num (str v) = some ty →
      ∀ m, member (exClaim k v ty) = some m → (arg m.key m.keyLength).all plainChar = true ∧
      (m.isString = true → (arg m.value m.valueLength).all plainChar = true) ∧
      (m.isString = false → JText .value (arg m.value m.valueLength) ∧ valueType num (arg m.value m.valueLength) = some (exClaim k v ty).type) := by
    intro k v ty hty h1 h2 h3 h4 m hm
    cases hm
    refine ⟨h1, fun h => absurd (of_decide_eq_true h) hty, fun _ => ?_⟩
    show JText .value (arg (str v ++ [0]) (str v).length) ∧ valueType num (arg (str v ++ [0]) (str v).length) = some ty
    rw [h2]
    exact ⟨h3, h4⟩
  constructor
  · intro c hc m hm
    rw [show ((exRequest alg key t).headerClaims.getD []).take (exRequest alg key t).headerClaimsCount = [exClaim "kid" "some-key-id-here-012345" 0] from rfl] at hc
    simp only [List.mem_cons, List.not_mem_nil, or_false] at hc
    subst hc
    exact quoted _ _ (by decide +kernel) (by decide +kernel) m hm
  · intro c hc m hm
    rw [show ((exRequest alg key t).payloadClaims.getD []).take (exRequest alg key t).payloadClaimsCount = [exClaim "ctx" "Unforseen Consequences" 0, exClaim "age" "27" 1, exClaim "size" "1.85" 2,
      exClaim "alive" "true" 3, exClaim "nulltest" "null" 4] from rfl] at hc
    simp only [List.mem_cons, List.not_mem_nil, or_false] at hc
    rcases hc with rfl | rfl | rfl | rfl | rfl
    · exact quoted _ _ (by decide +kernel) (by decide +kernel) m hm
    · refine plain _ _ _ (by decide) (by decide +kernel) (by decide +kernel)
        (.num ⟨[], str "27", [], [], rfl, Or.inl rfl, Or.inr ⟨⟨by decide, by decide⟩, by decide⟩, Or.inl rfl, Or.inl rfl⟩) ?_ m hm
      rw [valueType, if_neg (by decide), if_neg (by decide), if_neg (by decide), if_neg (by decide), if_neg (by decide), if_pos hn.age]
    · refine plain _ _ _ (by decide) (by decide +kernel) (by decide +kernel)
        (.num ⟨[], str "1", str ".85", [], by decide, Or.inl rfl, Or.inr ⟨⟨by decide, by decide⟩, by decide⟩, Or.inr ⟨str "85", by decide, by decide, by decide⟩, Or.inl rfl⟩) ?_ m hm
      rw [valueType, if_neg (by decide), if_neg (by decide), if_neg (by decide), if_neg (by decide), if_neg (by decide), if_neg (by rw [hn.size]; decide), if_pos hn.size]
    · exact plain _ _ _ (by decide) (by decide +kernel) (by decide +kernel) (.lit (by decide)) (by rw [valueType, if_neg (by decide), if_neg (by decide), if_neg (by decide), if_pos (by decide)]) m hm
    · exact plain _ _ _ (by decide) (by decide +kernel) (by decide +kernel) (.lit (by decide))
        (by rw [valueType, if_neg (by decide), if_neg (by decide), if_neg (by decide), if_neg (by decide), if_pos (by decide)]) m hm

theorem headerJson_ex (ha : alg? alg = some (n, sch)) : headerJson (exRequest alg key t) n = exHeader n := by
  have a : ∀ x ∈ algs, headerJson (exRequest 0 [] 0) x.1 = exHeader x.1 := by decide +kernel
  exact a (n, sch) (mem_algs ha)

theorem payloadJson_ex (ht : TimeOk t) : payloadJson (exRequest alg key t) = exPayload t := by
  have hw := writtenPayload_ex (alg := alg) (key := key) ht
  have hs : sep (exRequest alg key t) := Or.inl (by have := ht.1; simp only [exRequest]; omega)
  have hr : registered (exRequest alg key t) = registeredWith timeText (exRequest alg key t) := by
    have h0 := ht.1
    have h1 := ht.2
    unfold registered registeredWith
    rw [timeMember_nonneg "iat" (exRequest alg key t).iat (by simp only [exRequest]; omega) (by simp only [exRequest]; omega),
      timeMember_nonneg "exp" (exRequest alg key t).exp (by simp only [exRequest]; omega) (by simp only [exRequest]; omega),
      timeMember_nonneg "nbf" (exRequest alg key t).nbf (Int.le_refl 0) (show (0 : Int) < 2 ^ 63 by decide)]
  have h1 : registeredWith timeText (exRequest alg key t) ≠ [] := by
    have h0 := ht.1
    have : timeMember timeText "iat" (exRequest alg key t).iat ≠ [] := by
      rw [timeMember, if_neg (by simp only [exRequest]; omega)]; simp
    unfold registeredWith
    simp [this]
  have h2 : extra (exRequest alg key t).payloadClaims (exRequest alg key t).payloadClaimsCount ≠ [] := by
    rw [show extra (exRequest alg key t).payloadClaims (exRequest alg key t).payloadClaimsCount = extra (exRequest 0 [] 0).payloadClaims 5 from rfl]
    decide +kernel
  rw [← hw, writtenPayload, payloadForm, if_pos (show 0 < (exRequest alg key t).payloadClaimsCount from Nat.succ_pos 4), if_pos hs, payloadJson, hr,
    commaSep_append, if_pos ⟨h1, h2⟩]
  simp only [List.append_assoc]

theorem parsed_header (hn : NumsOk num) (ha : alg? alg = some (n, sch)) :
    exHeader n ≠ [] ∧ 0 ∉ exHeader n ∧ ∃ k, Parsed num (exHeader n) true (exHeaderClaims n) k .none := by
  have hh := (exHonest hn alg [] 1).1
  have hj := C18_headerJson_valid (p := exRequest alg [] 1) n sch ha (honest_values hh)
  have hs := sound_append (sound_header (num := num) ha) (sound_extra hh)
  obtain ⟨ds, k, h1, -, h3⟩ := parsed_typed (num := num) hj hs.typed
  rw [sayAll_eq h1 hs.plain, hs.claims, headerJson_ex ha] at h3
  have hb : behindOf (headerPairs n ++ extraPairs (exRequest alg [] 1).headerClaims (exRequest alg [] 1).headerClaimsCount) = .none := by
    have a : ∀ x ∈ algs, lastComposite (headerPairs x.1 ++ extraPairs (exRequest 0 [] 1).headerClaims 1) = false := by decide +kernel
    rw [behindOf, if_neg]
    rw [show lastComposite (headerPairs n ++ extraPairs (exRequest alg [] 1).headerClaims (exRequest alg [] 1).headerClaimsCount) = false from a (n, sch) (mem_algs ha)]
    decide
  have hc : headerClaimsOf n ++ extraClaims (exRequest alg [] 1).headerClaims (exRequest alg [] 1).headerClaimsCount = exHeaderClaims n := by
    rw [exHeaderClaims, show extraClaims (exRequest alg [] 1).headerClaims (exRequest alg [] 1).headerClaimsCount = extraClaims (exRequest 0 [] 1).headerClaims 1 from rfl,
      show extraClaims (exRequest 0 [] 1).headerClaims 1 = [⟨str "kid", str "some-key-id-here-012345", 0⟩] by decide +kernel]
  rw [hb, hc] at h3
  rw [headerJson_ex ha] at hj
  exact ⟨jobject_ne hj, jobject_nul hj, _, h3⟩

theorem parsed_payload (hn : NumsOk num) (ht : TimeOk t) :
    exPayload t ≠ [] ∧ 0 ∉ exPayload t ∧ ∃ k, Parsed num (exPayload t) true (exPayloadClaims t) k .none := by
  have h0 := ht.1
  have h1 := ht.2
  have hh := (exHonest hn 0 [] t).2
  have hj := C20_payloadJson_valid (p := exRequest 0 [] t) (honest_values hh)
  have hT : TimesOk (exRequest 0 [] t) := by unfold TimesOk; simp only [exRequest]; omega
  have hS : StringsPlain (exRequest 0 [] t) := by
    intro v m hm b hb
    have : (v, m) ∈ [(exLit "Gordon Freeman", 14), (exLit "Black Mesa", 10), (exLit "Administrator", 13), (none, 0)] := hm
    simp only [List.mem_cons, List.not_mem_nil, or_false, Prod.mk.injEq] at this
    rcases this with ⟨rfl, rfl⟩ | ⟨rfl, rfl⟩ | ⟨rfl, rfl⟩ | ⟨rfl, rfl⟩
    · cases hb; decide +kernel
    · cases hb; decide +kernel
    · cases hb; decide +kernel
    · cases hb
  have hs := sound_append (sound_registered hn.ints hT hS) (sound_extra hh)
  obtain ⟨ds, k, h1, -, h3⟩ := parsed_typed (num := num) hj hs.typed
  rw [sayAll_eq h1 hs.plain, hs.claims, payloadJson_ex ht] at h3
  have hb : behindOf (registeredPairs (exRequest 0 [] t) ++ extraPairs (exRequest 0 [] t).payloadClaims (exRequest 0 [] t).payloadClaimsCount) = .none := by
    have a : extraPairs (exRequest 0 [] t).payloadClaims (exRequest 0 [] t).payloadClaimsCount = extraPairs (exRequest 0 [] 0).payloadClaims 5 := rfl
    have b : (extraPairs (exRequest 0 [] 0).payloadClaims 5).getLast? = some (str "nulltest", str "null") := by decide +kernel
    rw [behindOf, if_neg]
    rw [lastComposite, List.getLast?_append, a, b]
    exact (by decide : ¬ composite (str "null") = true)
  have hc : registeredSays (exRequest 0 [] t) ++ extraClaims (exRequest 0 [] t).payloadClaims (exRequest 0 [] t).payloadClaimsCount = exPayloadClaims t := by
    have a : extraClaims (exRequest 0 [] t).payloadClaims (exRequest 0 [] t).payloadClaimsCount = extraClaims (exRequest 0 [] 0).payloadClaims 5 := rfl
    have b : extraClaims (exRequest 0 [] 0).payloadClaims 5 = [⟨str "ctx", str "Unforseen Consequences", 0⟩, ⟨str "age", str "27", 1⟩,
      ⟨str "size", str "1.85", 2⟩, ⟨str "alive", str "true", 3⟩, ⟨str "nulltest", str "null", 4⟩] := by decide +kernel
    have c1 : strSays "sub" (exLit "Gordon Freeman") 14 = [⟨str "sub", str "Gordon Freeman", 0⟩] := by decide +kernel
    have c2 : strSays "iss" (exLit "Black Mesa") 10 = [⟨str "iss", str "Black Mesa", 0⟩] := by decide +kernel
    have c3 : strSays "aud" (exLit "Administrator") 13 = [⟨str "aud", str "Administrator", 0⟩] := by decide +kernel
    rw [a, b, registeredSays]
    show timeSays "iat" t ++ [] ++ timeSays "exp" (t + 600) ++ strSays "sub" (exLit "Gordon Freeman") 14 ++ strSays "iss" (exLit "Black Mesa") 10 ++
      strSays "aud" (exLit "Administrator") 13 ++ [] ++ _ = _
    rw [c1, c2, c3, timeSays, timeSays, if_neg (by omega), if_neg (by omega)]
    rfl
  rw [hb, hc] at h3
  rw [payloadJson_ex ht] at hj
  exact ⟨jobject_ne hj, jobject_nul hj, _, h3⟩

/-! ## Their flags -/

/-- The flags of `exp`, `nbf` and `iat` of a token issued at `t`. -/
def exFlags (now t : Int) (nbf : Bool) : BitVec 32 :=
  (if now > t + 660 then 16 else 0) ||| (if nbf then 32 else 0) ||| (if now + 60 < t then 64 else 0)

/-- The time is a whole number, so the flags are those of RFC 7519: `exp` and `iat` of the token with a tolerance of one minute. -/
theorem exFlags_eq {now : Int} (ht : TimeOk t) : claimFlags (fun x => claimStarting x (exHeaderClaims n ++ exPayloadClaims t)) now (exDecRequest alg key jwt nbf typ) =
    exFlags now t nbf := by
  have h0 := ht.1
  have h1 := ht.2
  have hd : ∀ k ∈ ["iss", "sub", "exp", "nbf", "iat"], claimStarting (str k) (exHeaderClaims n ++ exPayloadClaims t) = claimStarting (str k) (exPayloadClaims t) := by
    intro k hk
    rw [starting_append, starting_none, Option.none_or]
    intro d hd
    have key : ∀ x ∈ ["iss", "sub", "exp", "nbf", "iat"], ∀ y ∈ ["alg", "typ", "kty", "crv", "kid"], (str x).isPrefixOf (str y) = false := by decide
    have : ∃ y ∈ ["alg", "typ", "kty", "crv", "kid"], d.key = str y := by
      unfold exHeaderClaims headerClaimsOf at hd
      have i1 : ∀ (c : Prop) [Decidable c] (a b : DClaim), d ∈ (if c then [a, b] else []) → d = a ∨ d = b := by
        intro c _ a b h
        split at h
        · simpa using h
        · cases h
      simp only [List.mem_append, List.mem_cons, List.not_mem_nil, or_false] at hd
      rcases hd with (((rfl | rfl) | hd) | hd) | rfl
      · exact ⟨"alg", by simp, rfl⟩
      · exact ⟨"typ", by simp, rfl⟩
      · rcases i1 _ _ _ hd with rfl | rfl
        · exact ⟨"kty", by simp, rfl⟩
        · exact ⟨"crv", by simp, rfl⟩
      · rcases i1 _ _ _ hd with rfl | rfl
        · exact ⟨"kty", by simp, rfl⟩
        · exact ⟨"crv", by simp, rfl⟩
      · exact ⟨"kid", by simp, rfl⟩
    obtain ⟨y, hy, e1⟩ := this
    rw [e1]
    exact key k hk y hy
  have f1 : claimStarting (str "iss") (exHeaderClaims n ++ exPayloadClaims t) = some ⟨str "iss", str "Black Mesa", 0⟩ := hd "iss" (by decide)
  have f2 : claimStarting (str "sub") (exHeaderClaims n ++ exPayloadClaims t) = some ⟨str "sub", str "Gordon Freeman", 0⟩ := hd "sub" (by decide)
  have f3 : claimStarting (str "exp") (exHeaderClaims n ++ exPayloadClaims t) = some ⟨str "exp", intText (t + 600), 1⟩ := hd "exp" (by decide)
  have f4 : claimStarting (str "nbf") (exHeaderClaims n ++ exPayloadClaims t) = none := hd "nbf" (by decide)
  have f5 : claimStarting (str "iat") (exHeaderClaims n ++ exPayloadClaims t) = some ⟨str "iat", intText t, 1⟩ := hd "iat" (by decide)
  have f6 : claimStarting (str "typ") (exHeaderClaims n ++ exPayloadClaims t) = some ⟨str "typ", str "JWT", 0⟩ := by
    rw [exHeaderClaims, List.append_assoc, typ_first]
  have l1 : leadingInt (intText t) = t := leadingInt_time (by omega) (by omega) (by omega)
  have l2 : leadingInt (intText (t + 600)) = t + 600 := leadingInt_time (by omega) (by omega) (by omega)
  have g1 : strFails (fun x => claimStarting x (exHeaderClaims n ++ exPayloadClaims t)) "iss" (some (str "Black Mesa" ++ [0])) 10 = false := by
    simp only [strFails, f1]; decide +kernel
  have g2 : strFails (fun x => claimStarting x (exHeaderClaims n ++ exPayloadClaims t)) "sub" (some (str "Gordon Freeman" ++ [0])) 14 = false := by
    simp only [strFails, f2]; decide +kernel
  have g3 : lateFails (fun x => claimStarting x (exHeaderClaims n ++ exPayloadClaims t)) "exp" true now 60 = decide (now > t + 660) := by
    simp only [lateFails, f3, l2, Bool.true_and]
    rw [show (60 : UInt8).toNat = 60 from rfl]
    exact decide_eq_decide.mpr (by omega)
  have g4 : earlyFails (fun x => claimStarting x (exHeaderClaims n ++ exPayloadClaims t)) "nbf" nbf now 0 = nbf := by
    simp only [earlyFails, f4, Bool.and_true]
  have g5 : earlyFails (fun x => claimStarting x (exHeaderClaims n ++ exPayloadClaims t)) "iat" true now 60 = decide (now + 60 < t) := by
    simp only [earlyFails, f5, l1, Bool.true_and]
    rw [show (60 : UInt8).toNat = 60 from rfl]
    rfl
  have g6 : typFails (fun x => claimStarting x (exHeaderClaims n ++ exPayloadClaims t)) (if typ then some (str "jwt" ++ [0]) else none) (if typ then 3 else 0) = false := by
    cases typ
    · rfl
    · simp only [typFails, f6, if_true]; decide +kernel
  unfold claimFlags
  simp only [exDecRequest]
  simp only [g1, g2, g3, g4, g5, g6]
  simp [strFails, exFlags]

/-! ## What is printed -/

/-- A token with header and payload of C84, issued at `t`, and any text that can be read as a signature. -/
structure ExToken (jwt : Bytes) (n : String) (t : Int) (c : Bytes) : Prop where
  alg : ∃ i sch, alg? i = some (n, sch)
  time : TimeOk t
  text : jwt = b64 true (exHeader n) ++ 46 :: (b64 true (exPayload t) ++ 46 :: c)
  sig : b64Decode true c ≠ none

/-- The return code and the flags for such a token: if there is no way to check the signature, it is a code that says so and all flags are
set. Otherwise the code is 0, and the flags are that of the signature and those of the times. -/
inductive ExVerdict (env : Env) (alg : Int) (key : Bytes) (n : String) (t : Int) (c : Bytes) (nbf : Bool) : Nat → BitVec 32 → Prop where
  | unchecked {rc} : VerFails env alg key (signingInput (exHeader n) (exPayload t)) rc → ExVerdict env alg key n t c nbf rc 0xffffffff#32
  | right : (∀ rc, ¬ VerFails env alg key (signingInput (exHeader n) (exPayload t)) rc) →
      Verifies env alg key (signingInput (exHeader n) (exPayload t)) c → ExVerdict env alg key n t c nbf 0 (exFlags env.now t nbf)
  | wrong : (∀ rc, ¬ VerFails env alg key (signingInput (exHeader n) (exPayload t)) rc) →
      ¬ Verifies env alg key (signingInput (exHeader n) (exPayload t)) c → ExVerdict env alg key n t c nbf 0 (128 ||| exFlags env.now t nbf)

variable {c : Bytes}

theorem signingInput_eq (a b : Bytes) : signingInput a b = b64 true a ++ 46 :: b64 true b := by simp [signingInput, str]

theorem ExToken.three (h : ExToken jwt n t c) : ThreeParts jwt (b64 true (exHeader n)) (b64 true (exPayload t)) c :=
  ⟨h.text, dot_not_mem_b64 _, dot_not_mem_b64 _⟩

theorem ExToken.texts (h : ExToken jwt n t c) (hn : NumsOk num) :
    readText (b64 true (exHeader n)) = exHeader n ∧ readText (b64 true (exPayload t)) = exPayload t ∧
      b64Decode true (b64 true (exHeader n)) ≠ none ∧ b64Decode true (b64 true (exPayload t)) ≠ none ∧
      (∃ k, Parsed num (exHeader n) true (exHeaderClaims n) k .none) ∧ (∃ k, Parsed num (exPayload t) true (exPayloadClaims t) k .none) := by
  obtain ⟨i, sch, ha⟩ := h.alg
  obtain ⟨a1, a2, a3⟩ := parsed_header hn ha
  obtain ⟨b1, b2, b3⟩ := parsed_payload hn h.time
  exact ⟨by rw [readText, jsonOf, b64Decode_b64 a1, Option.getD_some, cString_id a2], by rw [readText, jsonOf, b64Decode_b64 b1, Option.getD_some, cString_id b2],
    by rw [b64Decode_b64 a1]; simp, by rw [b64Decode_b64 b1]; simp, a3, b3⟩

theorem ExToken.few (h : ExToken jwt n t c) (hn : NumsOk env.checknum) : ¬ LeakyToken jwt ∧ FewClaims env jwt ∧
    ∀ a b, Parts jwt a b → Roomy env.checknum (readText a) ∧ Roomy env.checknum (readText b) := by
  obtain ⟨a1, a2, -, -, ⟨k1, a3⟩, ⟨k2, a4⟩⟩ := h.texts hn
  have one : ∀ a b, Parts jwt a b → a = b64 true (exHeader n) ∧ b = b64 true (exPayload t) :=
    fun a b hp => parts_unique hp (Or.inr ⟨_, h.three⟩)
  refine ⟨?_, ?_, ?_⟩
  · rintro ⟨a, b, hp, hl⟩
    obtain ⟨rfl, rfl⟩ := one a b hp
    rcases hl with hl | hl
    · rw [← a1] at a3
      cases (leaky_parsed hl a3).1
    · rw [← a2] at a4
      cases (leaky_parsed hl a4).1
  · intro a b hp
    obtain ⟨rfl, rfl⟩ := one a b hp
    rw [a1, a2]
    refine ⟨_, _, _, _, _, _, _, _, a3, trivial, a4, trivial, ?_⟩
    have : (exHeaderClaims n).length ≤ 5 := by
      obtain ⟨i, sch, ha⟩ := h.alg
      have a : ∀ x ∈ algs, (exHeaderClaims x.1).length ≤ 5 := by decide +kernel
      exact a (n, sch) (mem_algs ha)
    have : (exPayloadClaims t).length = 10 := rfl
    omega
  · intro a b hp
    obtain ⟨rfl, rfl⟩ := one a b hp
    rw [a1, a2]
    constructor
    · intro ok ds m b hp
      obtain ⟨-, -, -, rfl⟩ := parsed_unique a3 hp
      trivial
    · intro ok ds m b hp
      obtain ⟨-, -, -, rfl⟩ := parsed_unique a4 hp
      trivial

theorem ExToken.flags (h : ExToken jwt n t c) (hn : NumsOk env.checknum) {a b : Bytes} {ds1 n1 b1 ds2 n2 b2} (hp : Parts jwt a b)
    (p1 : Parsed env.checknum (readText a) true ds1 n1 b1) (p2 : Parsed env.checknum (readText b) true ds2 n2 b2) :
    claimFlags (fun x => claimStarting x (ds1 ++ ds2)) env.now (exDecRequest alg key jwt nbf typ) = exFlags env.now t nbf := by
  obtain ⟨a1, a2, -, -, ⟨k1, a3⟩, ⟨k2, a4⟩⟩ := h.texts hn
  obtain ⟨rfl, rfl⟩ := parts_unique hp (Or.inr ⟨_, h.three⟩)
  rw [a1] at p1
  rw [a2] at p2
  obtain ⟨-, rfl, -⟩ := parsed_unique a3 p1
  obtain ⟨-, rfl, -⟩ := parsed_unique a4 p2
  exact exFlags_eq h.time

/-- What decoding says of such a token. -/
theorem exAnswer (h : ExToken jwt n t c) (hn : NumsOk env.checknum) (ha : alg? alg = some (name', sch)) {rc : Nat} {v : BitVec 32} {ds : List DClaim}
    (an : Answer env (exDecRequest alg key jwt nbf typ) jwt rc v ds) : ExVerdict env alg key n t c nbf rc v := by
  obtain ⟨a1, a2, a5, a6, ⟨k1, a3⟩, ⟨k2, a4⟩⟩ := h.texts hn
  have h3 := h.three
  have hal : alg ≠ -1 := by rintro rfl; cases ha
  have hseg : SegCode alg jwt Code.success := Or.inr (Or.inr ⟨_, _, _, h3, Or.inr ⟨a5, a6, h.sig, rfl⟩⟩)
  have vf : ∀ rc, VerifyFails env (exDecRequest alg key jwt nbf typ) jwt rc ↔ VerFails env alg key (signingInput (exHeader n) (exPayload t)) rc := by
    intro rc
    rw [signingInput_eq]
    constructor
    · rintro ⟨-, a, b, c', h3', hv⟩
      obtain ⟨rfl, rfl, rfl⟩ := three_unique h3 h3'
      rwa [exDec_verKey] at hv
    · intro hv
      exact ⟨hal, _, _, _, h3, by rwa [exDec_verKey]⟩
  have bs : BadSignature env (exDecRequest alg key jwt nbf typ) jwt ↔ ¬ Verifies env alg key (signingInput (exHeader n) (exPayload t)) c := by
    rw [signingInput_eq]
    constructor
    · rintro ⟨-, -, a, b, c', h3', hv⟩
      obtain ⟨rfl, rfl, rfl⟩ := three_unique h3 h3'
      rwa [exDec_verKey] at hv
    · intro hv
      exact ⟨hal, by show (alg? alg).isSome; rw [ha]; rfl, _, _, _, h3, by rwa [exDec_verKey]⟩
  have ok : DecCode env (exDecRequest alg key jwt nbf typ) jwt Code.success → ∀ rc, ¬ VerFails env alg key (signingInput (exHeader n) (exPayload t)) rc := by
    intro hd rc hv
    generalize hz : Code.success = z at hd
    cases hd with
    | segments _ h2 => exact h2 hz.symm
    | verify _ h2 => exact (verFails_codes ((vf _).mp h2)).1 hz.symm
    | claims => cases hz
    | done _ h2 => exact h2 rc ((vf rc).mpr hv)
  cases an with
  | failed hd hne =>
    cases hd with
    | segments h1 h2 => exact absurd (SegCode_unique h1 hseg) h2
    | verify _ h2 => exact .unchecked ((vf _).mp h2)
    | claims _ _ hp hx =>
      exfalso
      obtain ⟨rfl, rfl⟩ := parts_unique hp (Or.inr ⟨_, h3⟩)
      rcases hx with ⟨_, _, _, hx⟩ | ⟨_, _, _, hx⟩
      · rw [a1] at hx
        cases (parsed_unique a3 hx).1
      · rw [a2] at hx
        cases (parsed_unique a4 hx).1
    | done => exact absurd rfl hne
  | good hd hp p1 p2 hb =>
    rw [h.flags hn hp p1 p2]
    exact .right (ok hd) (Classical.byContradiction fun hv => hb (bs.mpr hv))
  | bad hd hp p1 p2 hb =>
    rw [h.flags hn hp p1 p2]
    exact .wrong (ok hd) (bs.mp hb)

theorem ExToken.length (h : ExToken jwt n t c) (hn : NumsOk env.checknum) {p : DecParams} {rc : Nat} {v : BitVec 32} {ds : List DClaim}
    (an : Answer env p jwt rc v ds) : ds.length ≤ 16 := by
  have fl : ∀ {a b ds1 n1 b1 ds2 n2 b2}, Parts jwt a b → Parsed env.checknum (readText a) true ds1 n1 b1 → Parsed env.checknum (readText b) true ds2 n2 b2 →
      (ds1 ++ ds2).length ≤ 16 := by
    intro a b ds1 n1 b1 ds2 n2 b2 hp p1 p2
    obtain ⟨_, _, _, _, _, _, _, _, q1, -, q2, -, hl⟩ := (h.few hn).2.1 a b hp
    obtain ⟨-, rfl, -⟩ := parsed_unique q1 p1
    obtain ⟨-, rfl, -⟩ := parsed_unique q2 p2
    rw [List.length_append]
    exact hl
  cases an with
  | failed => simp
  | good _ hp p1 p2 => exact fl hp p1 p2
  | bad _ hp p1 p2 => exact fl hp p1 p2

theorem reachesHigh_jwt (k : Nat) : ¬ ReachesHigh (str "JWT") (cString (str "jwt" ++ [0])) k := by
  rintro ⟨i, x, -, -, hx, h1, -⟩
  have a1 : ∀ y ∈ str "JWT", y < 128 := by decide
  have a2 : ∀ y ∈ cString (str "jwt" ++ [0]), y < 128 := by decide
  rcases hx with hx | hx
  · exact absurd h1 (UInt8.not_le.mpr (a1 x (List.mem_of_getElem? hx)))
  · exact absurd h1 (UInt8.not_le.mpr (a2 x (List.mem_of_getElem? hx)))

/-- Decoding such a token is defined if the signature fits the algorithm and the kind of key. -/
theorem ExToken.tame (h : ExToken jwt n t c) (E : ExDecEnv env alg) (hss : env.smallStack = false ∨ s.noAllocFail)
    (A : ExDecArgs fuel alg key jwt) (hn : NumsOk env.checknum)
    (hs : ∀ d, b64Decode true c = some d → SigFits env (exDecRequest alg key jwt nbf typ) d) : Tame env s (exDecRequest alg key jwt nbf typ) jwt where
  stack := hss
  key := exDec_key
  fits := fun _ => Or.inl (by rw [exDec_verKey]; exact A.key.2.2)
  sig := by
    intro _ a b c' d h3 hd
    obtain ⟨rfl, rfl, rfl⟩ := three_unique h.three h3
    exact hs d hd
  tokens := (h.few hn).2.2
  expect := exDec_expect
  now := E.time
  typ := by
    refine Or.inr (Or.inr ⟨Or.inr (h.few hn).2.1, ?_⟩)
    intro a b hp ds1 n1 b1 ds2 n2 b2 p1 p2 _ e d he hd
    obtain ⟨a1, a2, -, -, ⟨k1, a3⟩, ⟨k2, a4⟩⟩ := h.texts hn
    obtain ⟨rfl, rfl⟩ := parts_unique hp (Or.inr ⟨_, h.three⟩)
    rw [a1] at p1
    obtain ⟨-, rfl, -⟩ := parsed_unique a3 p1
    rw [exHeaderClaims, List.append_assoc, typ_first] at hd
    cases hd
    cases typ with
    | false => cases he
    | true =>
      cases he
      exact reachesHigh_jwt _

/-- **C85** The programs with a token like those of C84 and any key: each of them prints a return code and a validation result and returns 0,
and all memory has been given back, whatever allocations fail (with `L8W8JWT_SMALL_STACK`: if none fails). The code and the result are those of `ExVerdict`, unless an allocation
fails: then the code may also be one that is not 0, with all flags set. In particular the result 0 is printed only if the signature is
right and the times are. -/
theorem C85_token (E : ExDecEnv env alg) (hss : env.smallStack = false ∨ s.noAllocFail)
    (A : ExDecArgs fuel alg key jwt) (hname : NameOk name) (hb : (nbf && typ) = false) (hn : NumsOk env.checknum)
    (h : ExToken jwt n t c) (ha : alg? alg = some (name', sch))
    (hs : ∀ d, b64Decode true c = some d → SigFits env (exDecRequest alg key jwt nbf typ) d) :
    ∃ rc v st', runMain env fuel (decodeMain alg key jwt (decFormat name) nbf typ) s = .ok (.int 0, st') ∧
      st'.printed = some (decMessage name rc v) ∧ st'.heap.live = [] ∧
      (ExVerdict env alg key n t c nbf rc v ∨ (¬ s.noAllocFail ∧ rc ≠ 0 ∧ v = 0xffffffff#32)) := by
  have hv := exDec_valid (nbf := nbf) (typ := typ) E A
  have ht := exDec_token (nbf := nbf) (typ := typ) A
  obtain ⟨r, h', he⟩ := (C47_decode_defined_partial (h := ⟨0, []⟩) E.crypto hv ht (h.tame (s := s) E hss A hn hs) false true true {}).1
  have hl := C49_no_leak_partial E.crypto ht (Or.inr (h.few hn).2.1) (h.few hn).1 he
  rcases decode_returns he with ⟨-, -, -, hbad⟩ | ⟨p1, st, g1, hp, -, -, -, hb', rfl⟩
  · exfalso
    rcases hbad with hn | hn | hn
    · exact hn hv
    · cases hn
    · simp at hn
  cases hp
  have ho := outcome_of E.crypto hv ht hb'
  rw [decOut, if_pos (by simp)] at he hl
  have main : (ExVerdict env alg key n t c nbf st.rc st.validation ∨ (¬ s.noAllocFail ∧ st.rc ≠ 0 ∧ st.validation = 0xffffffff#32)) ∧ st.rc < 2147483648 := by
    rcases outcome_lowmem exDec_expect E.time ho with ⟨h1, h2⟩ | ⟨h1, v, ds, es, b, h2, h3, h4, h5, h6, h7, h8⟩
    · rw [h2]
      rcases outcome_code_any ho with hd | ⟨hg, hd⟩
      · have an := Answer.failed hd h1
        exact ⟨Or.inl (exAnswer h hn ha an), answer_small an⟩
      · exact ⟨Or.inr ⟨hg, h1, rfl⟩, by rcases hd with hd | hd <;> rw [hd] <;> decide⟩
    · rw [h8, h7 (Or.inr (h.length hn h2)), ← h4, h1]
      exact ⟨Or.inl (exAnswer h hn ha h2), by decide⟩
  obtain ⟨st', e, p, rfl⟩ := dec_run (name := name) E A hname hb he main.2 rfl
  exact ⟨_, _, st', e, p, List.perm_nil.mp hl, main.1⟩

/-! ## The programs as they are -/

/-- The third part of a token. -/
def sigText (jwt : Bytes) : Bytes := (((jwt.dropWhile (· != 46)).tail).dropWhile (· != 46)).tail

/-- When the tokens of the programs were issued, in January and May 2020 and January 2021. -/
def issued (name : String) : Int :=
  if name ∈ ["hs384", "hs512"] then 1580339594 else if name ∈ ["rs384", "ps256", "ps384"] then 1580340037 else if name = "rs512" then 1590334607
  else if name = "ps512" then 1580478075 else if name = "es256k" then 1610570516 else if name = "eddsa" then 1610734001 else 1580353725

/-- The length of the signature of an algorithm; for RSA, that with a key of 4096 bits. -/
def sigLength : Scheme → Nat
  | .hmac md => md.len
  | .rsa _ => 512
  | .pss _ => 512
  | .ecdsa _ _ k _ => 2 * k
  | .eddsa => 64

theorem decodeExamples_facts : ∀ x ∈ decodeExamples, ∃ y ∈ algs, alg? x.2.1 = some y ∧
    x.2.2.2.2.1 = b64 true (exHeader y.1) ++ 46 :: (b64 true (exPayload (issued x.2.2.1)) ++ 46 :: sigText x.2.2.2.2.1) ∧
    (b64Decode true (sigText x.2.2.2.2.1)).map List.length = some (sigLength y.2) ∧ NameOk x.2.2.1 ∧ (x.2.2.2.2.2.1 && x.2.2.2.2.2.2) = false ∧
    0 ∉ x.2.2.2.1 ∧ 0 < x.2.2.2.1.length ∧ x.2.2.2.1.length < L8W8JWT_MAX_KEY_SIZE ∧ 0 ∉ x.2.2.2.2.1 ∧ x.2.2.2.2.1.length < 1500 := by
  unfold NameOk
  decide +kernel

/-- The key is one of the algorithm: for RSA-PSS a key of RSA with at most 4096 bits, for ECDSA a key of an elliptic curve. -/
def KeyKind (env : Env) (alg : Int) (key : Bytes) : Prop :=
  ∀ pk, PublicKey env.crypto key pk →
    (∀ name md, alg? alg = some (name, .pss md) → env.crypto.isRsa pk = true ∧ env.crypto.rsaLen pk ≤ 512) ∧
    (∀ name md cv k b, alg? alg = some (name, .ecdsa md cv k b) → env.crypto.isEc pk = true)

theorem decodeExamples_main {f : CFun} (hx : (f, alg, name, key, jwt, nbf, typ) ∈ decodeExamples) : f = decodeMain alg key jwt (decFormat name) nbf typ := by
  obtain ⟨i, hi⟩ := List.mem_iff_getElem?.mp hx
  have h := congrArg (fun l => l[i]?) decodeExamples_eq
  simp only [List.getElem?_map, hi, Option.map_some] at h
  exact Option.some.inj h

theorem exSigFits {d : Bytes} (ha : alg? alg = some (n, sch)) (hd : d.length = sigLength sch) (hk : KeyKind env alg key) :
    SigFits env (exDecRequest alg key jwt nbf typ) d := by
  have al : (exDecRequest alg key jwt nbf typ).alg = alg := rfl
  constructor
  · intro n' md h
    rw [al, ha] at h
    cases h
    rw [hd, sigLength]
    omega
  · intro n' md pk h hp
    rw [al] at h
    rw [exDec_verKey] at hp
    obtain ⟨h1, h2⟩ := (hk pk hp).1 _ _ h
    rw [ha] at h
    cases h
    rw [hd, sigLength]
    exact ⟨h1, by omega⟩
  · intro n' md cv k b pk h hp
    rw [exDec_verKey] at hp
    exact (hk pk hp).2 _ _ _ _ _ h
  · intro n' h _
    rw [al, ha] at h
    cases h
    rw [hd, sigLength]
    omega

/-- **C85** Twelve of the programs as they are, under any crypto library and `checknum` as described, at any time and whatever allocations
fail (with `L8W8JWT_SMALL_STACK`: if none fails). -/
theorem C85_programs (E : ExDecEnv env alg) (hss : env.smallStack = false ∨ s.noAllocFail) (hf : 4000 ≤ fuel) (hn : NumsOk env.checknum) {f : CFun}
    (hx : (f, alg, name, key, jwt, nbf, typ) ∈ decodeExamples) (hk : KeyKind env alg key) :
    ∃ n sch rc v st', alg? alg = some (n, sch) ∧ ExToken jwt n (issued name) (sigText jwt) ∧ runMain env fuel f s = .ok (.int 0, st') ∧
      st'.printed = some (decMessage name rc v) ∧ st'.heap.live = [] ∧
      (ExVerdict env alg key n (issued name) (sigText jwt) nbf rc v ∨ (¬ s.noAllocFail ∧ rc ≠ 0 ∧ v = 0xffffffff#32)) := by
  obtain ⟨⟨n, sch⟩, -, ha, h1, h2, h3, h4, h5, h6, h7, h8, h9⟩ := decodeExamples_facts _ hx
  simp only at ha h1 h2 h3 h4 h5 h6 h7 h8 h9
  have ht : TimeOk (issued name) := by
    unfold TimeOk issued
    repeat' split
    all_goals omega
  have tok : ExToken jwt n (issued name) (sigText jwt) := ⟨⟨alg, sch, ha⟩, ht, h1, by intro h0; rw [h0] at h2; cases h2⟩
  have hl : 0 < jwt.length := by rw [h1]; simp only [List.length_append, List.length_cons]; omega
  have hal : -2147483648 ≤ alg ∧ alg < 2147483648 := by
    unfold alg? at ha
    split at ha
    · cases ha
    · have := (List.getElem?_eq_some_iff.mp ha).1
      have hz : algs.length = 14 := rfl
      omega
  have A : ExDecArgs fuel alg key jwt := ⟨by omega, hal, ⟨h5, h6, h7⟩, ⟨h8, hl, by omega⟩⟩
  obtain ⟨rc, v, st', e, p, l, hv⟩ := C85_token (s := s) (name := name) E hss A h3 h4 hn tok ha
    (fun d hd => exSigFits ha (by rw [hd] at h2; exact Option.some.inj h2) hk)
  rw [← decodeExamples_main hx] at e
  exact ⟨n, sch, rc, v, st', ha, tok, e, p, l, hv⟩

/-- The flag of `exp` is set in all of them since January 2021: the tokens have expired. -/
theorem C85_expired (E : ExDecEnv env alg) (hss : env.smallStack = false ∨ s.noAllocFail)
    (hf : 4000 ≤ fuel) (hn : NumsOk env.checknum) (hnow : 1610734661 < env.now) {f : CFun}
    (hx : (f, alg, name, key, jwt, nbf, typ) ∈ decodeExamples) (hk : KeyKind env alg key) :
    ∃ rc v st', runMain env fuel f s = .ok (.int 0, st') ∧ st'.printed = some (decMessage name rc v) ∧ v &&& 16 ≠ 0 := by
  obtain ⟨n, sch, rc, v, st', -, -, e, p, -, hv⟩ := C85_programs (s := s) E hss hf hn hx hk
  refine ⟨rc, v, st', e, p, ?_⟩
  have hi : env.now > issued name + 660 := by
    unfold issued
    repeat' split
    all_goals omega
  have hb : ∀ a b c : BitVec 32, (a ||| (16 ||| b ||| c)) &&& 16 ≠ 0 := by
    intro a b c h
    have := congrArg (fun z : BitVec 32 => z.getLsbD 4) h
    simp at this
  have hb' : ∀ b c : BitVec 32, (16 ||| b ||| c) &&& 16 ≠ 0 := by
    intro b c h
    have := congrArg (fun z : BitVec 32 => z.getLsbD 4) h
    simp at this
  rcases hv with hv | ⟨-, -, rfl⟩
  · cases hv with
    | unchecked => decide
    | right => rw [exFlags, if_pos hi]; exact hb' _ _
    | wrong => rw [exFlags, if_pos hi]; exact hb _ _ _
  · decide

/-- **C85** examples/rs512/decode.c asks for `nbf` to be checked, which its token does not have, like those of all programs
examples/*/encode.c: it cannot print 0 for such a token, whatever the key and the time are. -/
theorem C85_nbf_false (E : ExDecEnv env alg) (hss : env.smallStack = false ∨ s.noAllocFail)
    (A : ExDecArgs fuel alg key jwt) (hname : NameOk name) (hn : NumsOk env.checknum)
    (h : ExToken jwt n t c) (ha : alg? alg = some (name', sch))
    (hs : ∀ d, b64Decode true c = some d → SigFits env (exDecRequest alg key jwt true false) d) :
    ∃ rc v st', runMain env fuel (decodeMain alg key jwt (decFormat name) true false) s = .ok (.int 0, st') ∧
      st'.printed = some (decMessage name rc v) ∧ v &&& 32 ≠ 0 := by
  obtain ⟨rc, v, st', e, p, -, hv⟩ := C85_token (s := s) (name := name) E hss A hname rfl hn h ha hs
  refine ⟨rc, v, st', e, p, ?_⟩
  have hb : ∀ a b c : BitVec 32, (a ||| (b ||| 32 ||| c)) &&& 32 ≠ 0 := by
    intro a b c h
    have := congrArg (fun z : BitVec 32 => z.getLsbD 5) h
    simp at this
  have hb' : ∀ b c : BitVec 32, (b ||| 32 ||| c) &&& 32 ≠ 0 := by
    intro b c h
    have := congrArg (fun z : BitVec 32 => z.getLsbD 5) h
    simp at this
  rcases hv with hv | ⟨-, -, rfl⟩
  · cases hv with
    | unchecked => decide
    | right => rw [exFlags, if_pos rfl]; exact hb' _ _
    | wrong => rw [exFlags, if_pos rfl]; exact hb _ _ _
  · decide

theorem numsOk_toy : NumsOk toy.checknum := ⟨intsOk_toy, by decide, by decide⟩

theorem exDecEnv_toy (now : Int) (h : NowOk now) : ExDecEnv { toy with now := now } alg :=
  ⟨toyOk, fun _ => rfl, fun _ => ⟨by show (-2147483648 : Int) ≤ 0; decide, by show (0 : Int) < 2147483648; decide⟩, h⟩

theorem plain_no_cert {c : Crypto} {k : Bytes} (h : k.length < 27) : CertOk c k := by
  rintro ⟨a, b, hab⟩
  have h1 : (cString k).length ≤ k.length := by unfold cString; exact (List.takeWhile_sublist _).length_le
  have := congrArg List.length hab
  simp only [List.length_append, show (str "-----BEGIN CERTIFICATE-----").length = 27 by decide] at this
  omega

/-- The text of examples/hs384/decode.c with a wrong signature: the flag 128. -/
example : ∃ st', runMain toy 20000 (decodeMain 1 (str "secret") (b64 true (exHeader "HS384") ++ 46 :: (b64 true (exPayload 1000) ++ 46 :: b64 true (List.replicate 48 1)))
      (decFormat "hs384") false false) calm = .ok (.int 0, st') ∧
    st'.printed = some (str "\nl8w8jwt_decode_hs384 function returned successfully (code 0).\n\nValidation result: \n128\n") ∧ st'.heap.live = [] := by
  have tok : ExToken (b64 true (exHeader "HS384") ++ 46 :: (b64 true (exPayload 1000) ++ 46 :: b64 true (List.replicate 48 1))) "HS384" 1000
      (b64 true (List.replicate 48 1)) := ⟨⟨1, _, rfl⟩, by unfold TimeOk; omega, rfl, by decide +kernel⟩
  obtain ⟨rc, v, st', e, p, l, h | ⟨h, -⟩⟩ := C85_token (fuel := 20000) (key := str "secret") (s := calm) (alg := 1) (name := "hs384") (nbf := false) (typ := false)
    (exDecEnv_toy 1000 (by unfold NowOk; omega)) (Or.inl rfl) ⟨by decide +kernel, by decide, by decide, by decide +kernel⟩ (by unfold NameOk; decide +kernel) rfl numsOk_toy tok rfl
    (fun d hd => by
      rw [show b64Decode true (b64 true (List.replicate 48 1)) = some (List.replicate 48 1) by decide +kernel] at hd
      cases hd
      exact exSigFits (alg := 1) rfl rfl (fun pk _ => ⟨fun _ _ h => (by cases h), fun _ _ _ _ _ h => (by cases h)⟩))
  · have hw : ¬ Verifies toy 1 (str "secret") (signingInput (exHeader "HS384") (exPayload 1000)) (b64 true (List.replicate 48 1)) := by
      rintro ⟨-, sig, -, h⟩
      revert h
      show toyCrypto.hmac .sha384 (hmacKey (str "secret")) _ = some (view _ 48) → False
      decide +kernel
    cases h with
    | unchecked h =>
      cases h with
      | cert h => exact absurd (plain_no_cert (by decide)) h
      | hash _ h h' => cases h; cases h'
      | key _ h h' => cases h; cases h'
      | ec _ h => cases h
      | edOff _ h => cases h
      | edKey _ h => cases h
    | right _ h => exact absurd h hw
    | wrong => exact ⟨st', e, p.trans (by decide +kernel), l⟩
  · exact absurd (fun _ => rfl) h

end L8w8jwt.C
