import Verif.Spec.Outcome
/-!
# Different texts that are the same token to the decoder
-/

namespace L8w8jwt.Spec

/-- The tokens have the same header and payload texts, and their signature texts have the same base64url characters in the same
order (but may differ in the other characters). -/
def Respelt (tok tok' : Bytes) : Prop :=
  ∃ a b c c', ThreeParts tok a b c ∧ ThreeParts tok' a b c' ∧ c.filter (relevant true) = c'.filter (relevant true)

/-- The tokens have the same header and payload texts, and the signatures are `sig` and `sig'`. -/
def Resigned (tok tok' sig sig' : Bytes) : Prop :=
  ∃ a b c c', ThreeParts tok a b c ∧ ThreeParts tok' a b c' ∧ b64Decode true c = some sig ∧ b64Decode true c' = some sig'

/-- The number of octets of the signature the algorithm looks at, if it does not depend on the length of the signature. -/
def looksAt (c : Crypto) (key : Bytes) : Scheme → Nat → Prop
  | .hmac md, n => n = md.len
  | .pss _, n => ∃ pk, PublicKey c key pk ∧ n = c.rsaLen pk
  | .eddsa, n => n = 64
  | _, _ => False

/-- The same request for another token. -/
def withToken (p : DecParams) (tok : Bytes) : DecParams := { p with jwt := some (tok ++ [0]), jwtLength := tok.length }

end L8w8jwt.Spec
