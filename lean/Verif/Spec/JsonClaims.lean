import Verif.Spec.JsonText
import Verif.Spec.Validate
/-!
# The claims of a JSON object (RFC 7519 section 4, claim.h:33-76), independent of the model
-/

namespace L8w8jwt.Spec

/-- The claim type of a JSON value (claim.h:33-76); `num` classifies numbers (1: integer, 2: other number). -/
def valueType (num : Bytes → Nat) (v : Bytes) : Option Int :=
  if v.head? = some 34 then some 0
  else if v.head? = some 91 then some 5
  else if v.head? = some 123 then some 6
  else if v = str "true" ∨ v = str "false" then some 3
  else if v = str "null" then some 4
  else if num v = 1 then some 1
  else if num v = 2 then some 2
  else none

/-- The text between the quotation marks of a string. -/
def unquote (v : Bytes) : Bytes := v.tail.dropLast

/-- What a member of a JSON object says: the name, and the string it has as value or the text of any other value. -/
def jsonClaim (num : Bytes → Nat) (m : Bytes × Bytes) : DClaim where
  key := (jsonString m.1).getD []
  value := if m.2.head? = some 34 then (jsonString (unquote m.2)).getD [] else m.2
  type := (valueType num m.2).getD 7

/-- Name and value have no `\uXXXX` escape sequences (those inside arrays and objects do not matter). -/
def plainPair (m : Bytes × Bytes) : Bool := noUni m.1 && (m.2.head? != some 34 || noUni (unquote m.2))

/-- Does the list of members end with an array or an object? -/
def lastComposite (l : List (Bytes × Bytes)) : Bool :=
  match l.getLast? with
  | some (_, v) => composite v
  | none => false

/-- The text with its two-character escape sequences replaced (and everything else kept, also `\uXXXX`). -/
inductive Unescapes : Bytes → Bytes → Prop where
  | nil : Unescapes [] []
  | simple {e x t v} : simpleEscape e = some x → Unescapes t v → Unescapes (92 :: e :: t) (x :: v)
  | other {c t v} : (c = 92 → ∀ e ∈ t.head?, simpleEscape e = none) → Unescapes t v → Unescapes (c :: t) (c :: v)

/-- Key and value of the claim are found in the text: the key in quotation marks, and a string value too. -/
def FoundIn (text : Bytes) (d : DClaim) : Prop :=
  (∃ pre k post, text = pre ++ 34 :: (k ++ 34 :: post) ∧ Unescapes k d.key) ∧
  ((d.type = 0 ∧ ∃ pre v post, text = pre ++ 34 :: (v ++ 34 :: post) ∧ Unescapes v d.value) ∨
    (d.type ≠ 0 ∧ ∃ pre post, text = pre ++ (d.value ++ post)))

/-- The claim says what the member says. In names and strings two-character escape sequences are replaced; this is the decoded
string if there are no `\uXXXX` escape sequences in it. -/
structure Says (num : Bytes → Nat) (m : Bytes × Bytes) (d : DClaim) : Prop where
  type : valueType num m.2 = some d.type
  rawKey : Unescapes m.1 d.key
  key : noUni m.1 = true → jsonString m.1 = some d.key
  rawString : m.2.head? = some 34 → Unescapes (unquote m.2) d.value
  string : m.2.head? = some 34 → noUni (unquote m.2) = true → jsonString (unquote m.2) = some d.value
  other : m.2.head? ≠ some 34 → d.value = m.2

/-- The claims say what the members say, one by one. -/
inductive SayAll (num : Bytes → Nat) : List (Bytes × Bytes) → List DClaim → Prop where
  | nil : SayAll num [] []
  | cons {m d l ds} : Says num m d → SayAll num l ds → SayAll num (m :: l) (d :: ds)

end L8w8jwt.Spec
