import Verif.Spec.Validate
import Verif.Spec.JsonText
/-!
# Exact claim validation and the value of JSON numbers, independent of the model
-/

namespace L8w8jwt.Spec

/-- The type differs from the expected one, ignoring case. -/
def typDiffers (find : Bytes → Option DClaim) (expected : Option Bytes) : Bool :=
  match expected with
  | none => false
  | some e =>
    match find (str "typ") with
    | none => true
    | some d => d.value.map lower != (cString e).map lower

/-- The claim validation flags as documented: claims are found by their name, `typ` is compared as a whole. -/
def exactFlags (ds : List DClaim) (now : Int) (p : DecParams) : BitVec 32 :=
  let find x := claimNamed x ds
  (if strFails find "iss" p.validateIss p.validateIssLength then 1 else 0) |||
  (if strFails find "sub" p.validateSub p.validateSubLength then 2 else 0) |||
  (if strFails find "aud" p.validateAud p.validateAudLength then 4 else 0) |||
  (if strFails find "jti" p.validateJti p.validateJtiLength then 8 else 0) |||
  (if lateFails find "exp" p.validateExp now p.expTolerance then 16 else 0) |||
  (if earlyFails find "nbf" p.validateNbf now p.nbfTolerance then 32 else 0) |||
  (if earlyFails find "iat" p.validateIat now p.iatTolerance then 64 else 0) |||
  (if typDiffers find p.validateTyp then 256 else 0)

/-- The names of the claims that are validated. -/
def validatedNames : List String := ["iss", "sub", "aud", "jti", "exp", "nbf", "iat", "typ"]

/-- The text is a JSON integer literal (RFC 8259 section 6 without fraction and exponent) denoting `x`. -/
def JInt (t : Bytes) (x : Int) : Prop :=
  (JDigits t ∧ x = digitsValue t) ∨ ∃ d, t = 45 :: d ∧ JDigits d ∧ x = -(digitsValue d : Int)

/-- The text is a non-negative JSON number without exponent, and denotes `m / 10^k`. -/
def JDecimal (t : Bytes) (m k : Nat) : Prop :=
  ∃ int frac, t = int ++ frac ∧ JDigits int ∧ ((frac = [] ∧ k = 0 ∧ m = digitsValue int) ∨
    ∃ d, frac = 46 :: d ∧ JDigits d ∧ k = d.length ∧ m = digitsValue (int ++ d))

/-- The text is a non-negative JSON number with exponent, and denotes `m * 10^e`. -/
def JScientific (t : Bytes) (m e : Nat) : Prop :=
  ∃ int ex, (t = int ++ 101 :: ex ∨ t = int ++ 69 :: ex) ∧ JDigits int ∧ JDigits ex ∧ m = digitsValue int ∧ e = digitsValue ex

end L8w8jwt.Spec
