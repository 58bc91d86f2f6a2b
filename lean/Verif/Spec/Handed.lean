import Verif.Spec.Decode
/-!
# What the raw decoding functions have to hand out

`HandsOut alg tok x y z` says which of header, payload and signature of a token can be decoded, in the order of decoding: each
segment only if those before it are fine, a payload without signature only if no signature is expected (`alg = -1`).
-/

namespace L8w8jwt.Spec

/-- The decoding of a text, provided `c`. -/
def decodedIf (c : Prop) [Decidable c] (t : Bytes) : Option Bytes := if c then b64Decode true t else none

/-- The segments of a token that are decoded before the first problem. -/
inductive HandsOut (alg : Int) (tok : Bytes) : Option Bytes → Option Bytes → Option Bytes → Prop where
  | one : 46 ∉ tok → HandsOut alg tok none none none
  | two {a b} : TwoParts tok a b →
      HandsOut alg tok (b64Decode true a) (decodedIf ((b64Decode true a).isSome ∧ alg = -1) b) none
  | three {a b c} : ThreeParts tok a b c →
      HandsOut alg tok (b64Decode true a) (decodedIf (b64Decode true a).isSome b)
        (decodedIf ((b64Decode true a).isSome ∧ (b64Decode true b).isSome) c)

end L8w8jwt.Spec
