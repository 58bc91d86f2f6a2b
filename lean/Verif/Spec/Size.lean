import Verif.Spec.Outcome
/-!
# How large results are
-/

namespace L8w8jwt.Spec

/-- The number of bytes of the names and values of claims, and two for each claim. -/
def claimsSize (ds : List DClaim) : Nat := (ds.map fun d => d.key.length + d.value.length + 2).sum

/-- The same for an array of claims, as reported by their length fields. -/
def reportedSize (cs : List Claim) : Nat := (cs.map fun c => c.keyLength + c.valueLength + 2).sum

/-- The length of an optional string parameter of the encoder. -/
def textSize (v : Ptr) (n : Nat) : Nat := ((givenText v n).getD []).length

/-- The number of bytes of names and values of the claims given to the encoder, and one for each claim. -/
def givenSize (claims : Option (List Claim)) (n : Nat) : Nat :=
  ((givenClaims claims n).map fun m => m.1.length + m.2.1.length + 1).sum

/-- The size of what the encoder is asked to put into a token. -/
def requestSize (p : EncParams) : Nat :=
  textSize p.iss p.issLength + textSize p.sub p.subLength + textSize p.aud p.audLength + textSize p.jti p.jtiLength +
    givenSize p.headerClaims p.headerClaimsCount + givenSize p.payloadClaims p.payloadClaimsCount

end L8w8jwt.Spec
