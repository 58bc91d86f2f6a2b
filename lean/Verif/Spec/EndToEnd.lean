import Verif.Spec.JsonClaims
/-!
# Encoding followed by decoding (RFC 7515, 7519), independent of the model
-/

namespace L8w8jwt.Spec

/-- The verification key matches the signing key: what the one signs, the other accepts. -/
def Matching (env : Env) (e : EncParams) (key : Bytes) : Prop :=
  let c := env.crypto
  CertOk c key ∧
  match alg? e.alg with
  | none => False
  | some (_, .hmac _) => hmacKey key = hmacKey (keyBytes e)
  | some (_, .rsa md) => ∀ sk, c.parseKey (pemKey (keyBytes e)) (password e) = some sk → ∃ pk, PublicKey c key pk ∧
      ∀ hash sig, c.pkSign sk md hash = some sig → c.pkVerify pk md hash sig = true
  | some (_, .pss md) => ∀ sk, c.parseKey (pemKey (keyBytes e)) (password e) = some sk → ∃ pk, PublicKey c key pk ∧
      c.isRsa pk = true ∧ c.rsaLen pk = c.rsaLen sk ∧ ∀ hash sig, c.pssSign sk md hash = some sig → c.pssVerify pk md hash sig = true
  | some (_, .ecdsa _ _ _ _) => ∀ sk, c.parseKey (pemKey (keyBytes e)) (password e) = some sk → ∃ pk, PublicKey c key pk ∧
      c.isEc pk = true ∧ c.ecOk pk = true ∧ ∀ hash r s, c.ecdsaSign sk hash = some (r, s) → c.ecdsaVerify pk hash r s = true
  | some (_, .eddsa) => env.eddsa = true ∧ (hmacKey key).length = 64 ∧ ∀ msg,
      c.edVerify (c.edSign msg (laxHex env.charSigned ((keyBytes e).take 128) ++ [0])) msg (laxHex env.charSigned (hmacKey key)) = true

/-- Characters that are not written as `\uXXXX`. -/
def plainChar (c : UInt8) : Bool := (decide (32 ≤ c) || c == 8 || c == 9 || c == 10 || c == 12 || c == 13) && c != 127

/-- The fixed header claims. -/
def headerClaimsOf (name : String) : List DClaim :=
  [⟨str "alg", str name, 0⟩, ⟨str "typ", str "JWT", 0⟩] ++
    (if name = "ES256K" then [⟨str "kty", str "EC", 0⟩, ⟨str "crv", str "secp256k1", 0⟩] else []) ++
    (if name = "EdDSA" then [⟨str "kty", str "EC", 0⟩, ⟨str "crv", str "Ed25519", 0⟩] else [])

/-- A time claim is an integer. -/
def timeSays (k : String) (t : Int) : List DClaim := if t = 0 then [] else [⟨str k, intText t, 1⟩]

/-- A registered string claim. -/
def strSays (k : String) (v : Ptr) (n : Nat) : List DClaim :=
  match v with
  | none => []
  | some b => [⟨str k, arg b.mem n, 0⟩]

/-- The registered claims. -/
def registeredSays (p : EncParams) : List DClaim :=
  timeSays "iat" p.iat ++ timeSays "nbf" p.nbf ++ timeSays "exp" p.exp ++ strSays "sub" p.sub p.subLength ++
    strSays "iss" p.iss p.issLength ++ strSays "aud" p.aud p.audLength ++ strSays "jti" p.jti p.jtiLength

/-- A claim of the caller. -/
def givenClaim (c : Claim) : Option DClaim :=
  (member c).map fun m => ⟨arg m.key m.keyLength, arg m.value m.valueLength, c.type⟩

/-- The claims of the caller. -/
def extraClaims (claims : Option (List Claim)) (n : Nat) : List DClaim := ((claims.getD []).take n).filterMap givenClaim

/-- All claims, in the order in which they are written. -/
def encodedClaims (p : EncParams) (name : String) : List DClaim :=
  (headerClaimsOf name ++ extraClaims p.headerClaims p.headerClaimsCount) ++
    (registeredSays p ++ extraClaims p.payloadClaims p.payloadClaimsCount)

/-- The claims of the caller are what their types say, and strings have no unusual control characters. -/
def ClaimsHonest (num : Bytes → Nat) (claims : Option (List Claim)) (n : Nat) : Prop :=
  ∀ c ∈ (claims.getD []).take n, ∀ m, member c = some m →
    (arg m.key m.keyLength).all plainChar = true ∧
    (m.isString = true → (arg m.value m.valueLength).all plainChar = true) ∧
    (m.isString = false → JText .value (arg m.value m.valueLength) ∧ valueType num (arg m.value m.valueLength) = some c.type)

/-- The registered strings have no unusual control characters. -/
def StringsPlain (p : EncParams) : Prop :=
  ∀ v n, (v, n) ∈ [(p.sub, p.subLength), (p.iss, p.issLength), (p.aud, p.audLength), (p.jti, p.jtiLength)] →
    ∀ b, v = some b → (arg b.mem n).all plainChar = true

/-- Decimal integers are recognised as integers. -/
def IntsOk (num : Bytes → Nat) : Prop := ∀ t : Int, 0 < t → num (intText t) = 1

/-- The pairs have at most 61 names and values, or do not end with an array or object. -/
def FitsTokens (l : List (Bytes × Bytes)) : Prop := (∃ n, PairsSize l n ∧ n ≤ 61) ∨ lastComposite l = false

/-- The claims differ at most in the contents of strings. -/
inductive Alike : List Claim → List Claim → Prop where
  | nil : Alike [] []
  | same {c l l'} : Alike l l' → Alike (c :: l) (c :: l')
  | string {c c' l l'} : c.key = c'.key → c.keyLength = c'.keyLength → c.type = 0 → c'.type = 0 → c.value.isSome = c'.value.isSome →
      Alike l l' → Alike (c :: l) (c' :: l')

/-- The encoder is asked for the same claims, up to the contents of strings. Keys may differ. -/
structure AlikeParams (e e' : EncParams) : Prop where
  alg : e.alg = e'.alg
  iat : e.iat = e'.iat
  nbf : e.nbf = e'.nbf
  exp : e.exp = e'.exp
  iss : e.iss.isSome = e'.iss.isSome
  sub : e.sub.isSome = e'.sub.isSome
  aud : e.aud.isSome = e'.aud.isSome
  jti : e.jti.isSome = e'.jti.isSome
  header : Alike ((e.headerClaims.getD []).take e.headerClaimsCount) ((e'.headerClaims.getD []).take e'.headerClaimsCount)
  payload : Alike ((e.payloadClaims.getD []).take e.payloadClaimsCount) ((e'.payloadClaims.getD []).take e'.payloadClaimsCount)

/-- A value is expected, and it is not what the encoder was given. -/
def Differs (giv : Option Bytes) (expected : Option Bytes) (n : Nat) : Prop := ∃ x, expected = some x ∧ giv ≠ some (arg x n)

/-- The validation flags agree with what the encoder was asked for; time 0 means that there is no such claim. -/
structure Verdict (e : EncParams) (p : DecParams) (now : Int) (v : BitVec 32) : Prop where
  iss : v &&& 1 ≠ 0 ↔ Differs (givenText e.iss e.issLength) p.validateIss p.validateIssLength
  sub : v &&& 2 ≠ 0 ↔ Differs (givenText e.sub e.subLength) p.validateSub p.validateSubLength
  aud : v &&& 4 ≠ 0 ↔ Differs (givenText e.aud e.audLength) p.validateAud p.validateAudLength
  jti : v &&& 8 ≠ 0 ↔ Differs (givenText e.jti e.jtiLength) p.validateJti p.validateJtiLength
  exp : v &&& 16 ≠ 0 ↔ p.validateExp = true ∧ (e.exp = 0 ∨ now > e.exp + p.expTolerance.toNat)
  nbf : v &&& 32 ≠ 0 ↔ p.validateNbf = true ∧ (e.nbf = 0 ∨ now + p.nbfTolerance.toNat < e.nbf)
  iat : v &&& 64 ≠ 0 ↔ p.validateIat = true ∧ (e.iat = 0 ∨ now + p.iatTolerance.toNat < e.iat)
  signature : v &&& 128 = 0

/-- The caller's own claims do not use names that start like registered ones. -/
def OwnNames (e : EncParams) : Prop :=
  ∀ d ∈ extraClaims e.headerClaims e.headerClaimsCount ++ extraClaims e.payloadClaims e.payloadClaimsCount,
    ∀ k ∈ ["iss", "sub", "aud", "jti", "exp", "nbf", "iat"], (str k).isPrefixOf d.key = false

end L8w8jwt.Spec
