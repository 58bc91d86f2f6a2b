/-!
# The documented return codes (include/l8w8jwt/retcodes.h), as numbers

Written down from the documentation of the codes, not from the model.
-/

namespace L8w8jwt.Spec.Code

/-- Everything went well. -/
abbrev success : Nat := 0
/-- A NULL argument that should not have been NULL. -/
abbrev nullArg : Nat := 100
/-- An invalid parameter. -/
abbrev invalidArg : Nat := 200
/-- Some allocation failed. -/
abbrev outOfMem : Nat := 300
/-- A size does not fit into its type. -/
abbrev overflow : Nat := 310
/-- Signing failed. -/
abbrev signing : Nat := 400
/-- A SHA-2 function failed. -/
abbrev sha2 : Nat := 410
/-- A key could not be parsed. -/
abbrev keyParse : Nat := 420
/-- Base64 encoding or decoding failed. -/
abbrev base64 : Nat := 425
/-- The key is of the wrong kind. -/
abbrev wrongKey : Nat := 450
/-- The random generator could not be seeded. -/
abbrev seed : Nat := 500
/-- The token is malformed. -/
abbrev format : Nat := 600
/-- The signature is missing although the algorithm is not "none". -/
abbrev missingSignature : Nat := 700
/-- The library was built without the algorithm. -/
abbrev unsupported : Nat := 800

end L8w8jwt.Spec.Code
