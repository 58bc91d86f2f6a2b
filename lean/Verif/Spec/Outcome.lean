import Verif.Spec.Loose
/-!
# The return codes of whole calls

Which code `l8w8jwt_encode` and `l8w8jwt_decode` return for valid parameters when no allocation fails, written down from the
documentation of the codes. (NULL and out-of-range parameters are C16 and C27.)
-/

namespace L8w8jwt.Spec

/-- The code of `l8w8jwt_encode`. -/
inductive EncCode (env : Env) (p : EncParams) : Nat → Prop where
  /-- there is no such algorithm -/
  | unknown : alg? p.alg = none → EncCode env p Code.invalidArg
  /-- the text cannot be signed -/
  | sign {name sch rc} : alg? p.alg = some (name, sch) → SignFails env p (signingInput (writtenHeader p name) (writtenPayload p)) rc →
      EncCode env p rc
  /-- the text can be signed -/
  | done {name sch} : alg? p.alg = some (name, sch) →
      (∀ rc, ¬ SignFails env p (signingInput (writtenHeader p name) (writtenPayload p)) rc) → EncCode env p Code.success

/-- All of what encoding tells the caller: the return code, and the token in case of success. -/
inductive EncAnswer (env : Env) (p : EncParams) : Nat → Option Bytes → Prop where
  | failed {rc} : EncCode env p rc → rc ≠ Code.success → EncAnswer env p rc none
  | done {name sch sig tok} : EncCode env p Code.success → alg? p.alg = some (name, sch) →
      Signed env p (signingInput (writtenHeader p name) (writtenPayload p)) sig →
      IsToken tok (writtenHeader p name) (writtenPayload p) sig → EncAnswer env p Code.success (some tok)

/-- The claims of an array: keys, values, and whether they are strings. -/
def givenClaims (claims : Option (List Claim)) (n : Nat) : List (Bytes × Bytes × Bool) :=
  (((claims.getD []).take n).filterMap member).map fun m => (arg m.key m.keyLength, arg m.value m.valueLength, m.isString)

/-- Two sets of parameters ask for the same token: algorithm, key, password, times, strings and claims. The memory in which they are
passed, and what is behind it, may differ. -/
structure SameToken (p q : EncParams) : Prop where
  alg : p.alg = q.alg
  /-- a terminator may be counted or not -/
  key : hmacKey (keyBytes p) = hmacKey (keyBytes q)
  pw : password p = password q
  times : p.iat = q.iat ∧ p.nbf = q.nbf ∧ p.exp = q.exp
  iss : givenText p.iss p.issLength = givenText q.iss q.issLength
  sub : givenText p.sub p.subLength = givenText q.sub q.subLength
  aud : givenText p.aud p.audLength = givenText q.aud q.audLength
  jti : givenText p.jti p.jtiLength = givenText q.jti q.jtiLength
  header : givenClaims p.headerClaims p.headerClaimsCount = givenClaims q.headerClaims q.headerClaimsCount
  payload : givenClaims p.payloadClaims p.payloadClaimsCount = givenClaims q.payloadClaims q.payloadClaimsCount
  /-- a count without claims makes the code write a comma -/
  counts : (0 < p.headerClaimsCount ↔ 0 < q.headerClaimsCount) ∧ (0 < p.payloadClaimsCount ↔ 0 < q.payloadClaimsCount)
  /-- so does a length of a registered claim (C20) -/
  comma : 0 < p.payloadClaimsCount → (sep p ↔ sep q)

/-- Verifying the signature is impossible. -/
def VerifyFails (env : Env) (p : DecParams) (tok : Bytes) (rc : Nat) : Prop :=
  p.alg ≠ -1 ∧ ∃ a b c, ThreeParts tok a b c ∧ VerFails env p.alg (verKey p) (a ++ 46 :: b) rc

/-- The text of header or payload is accepted or not. -/
def Accepts (env : Env) (text : Bytes) (ok : Bool) : Prop := ∃ ds n b, Parsed env.checknum (readText text) ok ds n b

/-- The code of `l8w8jwt_decode` and `l8w8jwt_decode_raw`. -/
inductive DecCode (env : Env) (p : DecParams) (tok : Bytes) : Nat → Prop where
  /-- the token cannot be split and decoded -/
  | segments {rc} : SegCode p.alg tok rc → rc ≠ Code.success → DecCode env p tok rc
  /-- the signature cannot be checked -/
  | verify {rc} : SegCode p.alg tok Code.success → VerifyFails env p tok rc → DecCode env p tok rc
  /-- header or payload are malformed -/
  | claims {a b} : SegCode p.alg tok Code.success → (∀ rc, ¬ VerifyFails env p tok rc) → Parts tok a b →
      (Accepts env a false ∨ Accepts env b false) → DecCode env p tok Code.format
  /-- everything could be read -/
  | done {a b} : SegCode p.alg tok Code.success → (∀ rc, ¬ VerifyFails env p tok rc) → Parts tok a b →
      Accepts env a true → Accepts env b true → DecCode env p tok Code.success

/-- The signature is checked and found wrong. -/
def BadSignature (env : Env) (p : DecParams) (tok : Bytes) : Prop :=
  p.alg ≠ -1 ∧ (alg? p.alg).isSome ∧ ∃ a b c, ThreeParts tok a b c ∧ ¬ Verifies env p.alg (verKey p) (a ++ 46 :: b) c

/-- All of what decoding tells the caller: the return code, the validation result and the claims. If the token cannot be read, all
validation flags are set and there are no claims. Otherwise the claims are those of the header followed by those of the payload,
and the flags are those of the signature and of the claims (found as the first whose name starts like the one looked for). -/
inductive Answer (env : Env) (p : DecParams) (tok : Bytes) : Nat → BitVec 32 → List DClaim → Prop where
  | failed {rc} : DecCode env p tok rc → rc ≠ Code.success → Answer env p tok rc 0xffffffff#32 []
  | good {a b ds1 n1 b1 ds2 n2 b2} : DecCode env p tok Code.success → Parts tok a b →
      Parsed env.checknum (readText a) true ds1 n1 b1 → Parsed env.checknum (readText b) true ds2 n2 b2 → ¬ BadSignature env p tok →
      Answer env p tok Code.success (claimFlags (fun x => claimStarting x (ds1 ++ ds2)) env.now p) (ds1 ++ ds2)
  | bad {a b ds1 n1 b1 ds2 n2 b2} : DecCode env p tok Code.success → Parts tok a b →
      Parsed env.checknum (readText a) true ds1 n1 b1 → Parsed env.checknum (readText b) true ds2 n2 b2 → BadSignature env p tok →
      Answer env p tok Code.success (128 ||| claimFlags (fun x => claimStarting x (ds1 ++ ds2)) env.now p) (ds1 ++ ds2)

/-- The expected value of a claim, if there is one. -/
def expected (e : Option Bytes) (n : Nat) : Option Bytes := e.map (arg · n)

/-- Two sets of parameters ask for the same: algorithm, key, expected values, what is to be validated, and tolerances. The memory
in which they are passed, and what is behind it, may differ. -/
structure SameRequest (p q : DecParams) : Prop where
  alg : p.alg = q.alg
  /-- a terminator may be counted or not -/
  key : hmacKey (verKey p) = hmacKey (verKey q)
  iss : expected p.validateIss p.validateIssLength = expected q.validateIss q.validateIssLength
  sub : expected p.validateSub p.validateSubLength = expected q.validateSub q.validateSubLength
  aud : expected p.validateAud p.validateAudLength = expected q.validateAud q.validateAudLength
  jti : expected p.validateJti p.validateJtiLength = expected q.validateJti q.validateJtiLength
  exp : p.validateExp = q.validateExp ∧ p.expTolerance = q.expTolerance
  nbf : p.validateNbf = q.validateNbf ∧ p.nbfTolerance = q.nbfTolerance
  iat : p.validateIat = q.validateIat ∧ p.iatTolerance = q.iatTolerance
  typ : p.validateTyp.map cString = q.validateTyp.map cString ∧ p.validateTypLength = q.validateTypLength

/-- Decoding is defined whatever the uninitialised slots of the token array contain (for readable parameters, and without
allocation failures). Each condition is needed only if decoding gets that far: checking the signature is defined; parsing the
header, and the payload after a header that is accepted, needs no slots that do not exist; and comparing the types does not pass
negative values to `tolower`. -/
def DecDefined (env : Env) (p : DecParams) (tok : Bytes) : Prop :=
  SegCode p.alg tok Code.success →
    (p.alg ≠ -1 → ∀ a b c, ThreeParts tok a b c → VerDefined env p (a ++ 46 :: b) c) ∧
    ((∀ rc, ¬ VerifyFails env p tok rc) → ∀ a b, Parts tok a b →
      Roomy env.checknum (readText a) ∧ (Accepts env a true → Roomy env.checknum (readText b)) ∧
      ∀ ds1 n1 b1 ds2 n2 b2, Parsed env.checknum (readText a) true ds1 n1 b1 → Parsed env.checknum (readText b) true ds2 n2 b2 →
        TypDefined env p (ds1 ++ ds2))

end L8w8jwt.Spec
