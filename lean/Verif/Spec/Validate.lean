import Verif.Spec.Decode
/-!
# Claims and their validation (RFC 7519 sections 4.1 and 5.1, decode.h:110-229), independent of the model
-/

namespace L8w8jwt.Spec

/-- What a decoded claim says: key and value text, and type. -/
structure DClaim where
  key : Bytes
  value : Bytes
  type : Int
  deriving DecidableEq, Repr

/-- The first claim of that name. -/
def claimNamed (name : Bytes) (ds : List DClaim) : Option DClaim := ds.find? fun d => d.key == name

/-- The first claim whose name starts like this. -/
def claimStarting (name : Bytes) (ds : List DClaim) : Option DClaim := ds.find? fun d => name.isPrefixOf d.key

/-- At most one claim has a name that starts like this one. -/
def OnlyOne (name : Bytes) (ds : List DClaim) : Prop := (ds.filter fun d => name.isPrefixOf d.key).length ≤ 1

/-- No claim's name is a proper extension of this one. -/
def NoShadow (name : Bytes) (ds : List DClaim) : Prop := ∀ d ∈ ds, ∀ t, d.key = name ++ t → t = []

/-- The value of a string of decimal digits. -/
def digitsValue (t : Bytes) : Nat := t.foldl (fun a c => a * 10 + (c.toNat - 48)) 0

/-- Restriction to the range of 64-bit signed integers. -/
def clamp (x : Int) : Int := max (-9223372036854775808) (min 9223372036854775807 x)

def digit (c : UInt8) : Bool := decide (48 ≤ c) && decide (c ≤ 57)
def blank (c : UInt8) : Bool := c == 32 || c == 9 || c == 10 || c == 11 || c == 12 || c == 13

/-- The decimal integer (digits, with an optional sign) a text starts with, possibly after white space; 0 if there is none. -/
def leadingInt (v : Bytes) : Int :=
  match v.dropWhile blank with
  | 45 :: t => clamp (-(digitsValue (t.takeWhile digit) : Int))
  | 43 :: t => clamp (digitsValue (t.takeWhile digit) : Int)
  | t => clamp (digitsValue (t.takeWhile digit) : Int)

/-- Must the claim be reported as missing or different? `find`: the token's claim of a given name. -/
def strFails (find : Bytes → Option DClaim) (name : String) (expected : Option Bytes) (n : Nat) : Bool :=
  match expected with
  | none => false
  | some e =>
    match find (str name) with
    | none => true
    | some d => d.value != arg e n

/-- Expired: the current time, minus the tolerance, is later than the claim. -/
def lateFails (find : Bytes → Option DClaim) (name : String) (enabled : Bool) (now : Int) (tol : UInt8) : Bool :=
  enabled && match find (str name) with
    | none => true
    | some d => decide (now - tol.toNat > leadingInt d.value)

/-- Not yet valid: the current time, plus the tolerance, is earlier than the claim. -/
def earlyFails (find : Bytes → Option DClaim) (name : String) (enabled : Bool) (now : Int) (tol : UInt8) : Bool :=
  enabled && match find (str name) with
    | none => true
    | some d => decide (now + tol.toNat < leadingInt d.value)

/-- The type differs in its first `n` characters, ignoring case (or there is nothing to compare). -/
def typFails (find : Bytes → Option DClaim) (expected : Option Bytes) (n : Nat) : Bool :=
  match expected with
  | none => false
  | some e =>
    match find (str "typ") with
    | none => true
    | some d => (d.value.take n).map lower != ((cString e).take n).map lower || n == 0 || (d.value.isEmpty && (cString e).isEmpty)

/-- The claim validation flags (values from decode.h:45-95). -/
def claimFlags (find : Bytes → Option DClaim) (now : Int) (p : DecParams) : BitVec 32 :=
  (if strFails find "iss" p.validateIss p.validateIssLength then 1 else 0) |||
  (if strFails find "sub" p.validateSub p.validateSubLength then 2 else 0) |||
  (if strFails find "aud" p.validateAud p.validateAudLength then 4 else 0) |||
  (if strFails find "jti" p.validateJti p.validateJtiLength then 8 else 0) |||
  (if lateFails find "exp" p.validateExp now p.expTolerance then 16 else 0) |||
  (if earlyFails find "nbf" p.validateNbf now p.nbfTolerance then 32 else 0) |||
  (if earlyFails find "iat" p.validateIat now p.iatTolerance then 64 else 0) |||
  (if typFails find p.validateTyp p.validateTypLength then 256 else 0)

/-- The expected values are readable; the expected type is a C string. -/
def ExpectOk (p : DecParams) : Prop :=
  (∀ e, p.validateIss = some e → argOk e p.validateIssLength) ∧ (∀ e, p.validateSub = some e → argOk e p.validateSubLength) ∧
  (∀ e, p.validateAud = some e → argOk e p.validateAudLength) ∧ (∀ e, p.validateJti = some e → argOk e p.validateJtiLength) ∧
  (∀ e, p.validateTyp = some e → 0 ∈ e)

/-- The current time is not within 255 seconds of the end of time. -/
def NowOk (now : Int) : Prop := -9223372036854775808 + 255 ≤ now ∧ now + 255 ≤ 9223372036854775807

/-- The claim has NUL-terminated copies of this key and value. -/
def View (c : Claim) (d : DClaim) : Prop :=
  (∃ i z, c.key = some ⟨i, d.key ++ 0 :: z⟩ ∧ c.keyLength = d.key.length) ∧
  (∃ i z, c.value = some ⟨i, d.value ++ 0 :: z⟩ ∧ c.valueLength = d.value.length) ∧ c.type = d.type ∧ 0 ∉ d.key ∧ 0 ∉ d.value

/-- The same for lists. -/
inductive Views : List Claim → List DClaim → Prop where
  | nil : Views [] []
  | cons {c d l m} : View c d → Views l m → Views (c :: l) (d :: m)

/-- The texts compared by the type check are ASCII where `char` is signed. -/
def TypAscii (env : Env) (p : DecParams) (ds : List DClaim) : Prop := env.charSigned = true →
  ∀ e d, p.validateTyp = some e → claimStarting (str "typ") ds = some d → (∀ c ∈ d.value, c < 128) ∧ ∀ c ∈ cString e, c < 128

/-- The type check is defined: where `char` is signed, the comparison does not come to a byte that is not ASCII. -/
def TypDefined (env : Env) (p : DecParams) (ds : List DClaim) : Prop := env.charSigned = true →
  ∀ e d, p.validateTyp = some e → claimStarting (str "typ") ds = some d → ¬ ReachesHigh d.value (cString e) p.validateTypLength

end L8w8jwt.Spec
