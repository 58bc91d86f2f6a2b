import Verif.Spec.Json
import Verif.Model.Claim
/-!
# What `l8w8jwt_write_claims` and `l8w8jwt_get_claim` are documented to do (independent of the model)
-/

namespace L8w8jwt.Spec

/-- A string argument given as memory and length; length 0 means: up to the first NUL (claim.h:84-104). -/
def arg (mem : Bytes) (n : Nat) : Bytes := if n = 0 then cString mem else mem.take n

/-- The argument is readable: the memory has `n` bytes, or contains a NUL if `n` is 0. -/
def argOk (mem : Bytes) (n : Nat) : Prop := if n = 0 then 0 ∈ mem else n ≤ mem.length

/-- A claim as passed by a caller: key, its length, value, its length, and whether the type is string. -/
structure Member where
  key : Bytes
  keyLength : Nat
  value : Bytes
  valueLength : Nat
  isString : Bool

/-- The JSON member text. -/
def Member.text (m : Member) : Bytes :=
  str "\"" ++ escape (arg m.key m.keyLength) ++ str "\":" ++
    if m.isString then str "\"" ++ escape (arg m.value m.valueLength) ++ str "\"" else arg m.value m.valueLength

/-- Both strings are readable. -/
def Member.ok (m : Member) : Prop := argOk m.key m.keyLength ∧ argOk m.value m.valueLength

/-- The characters that go through the escaping table are ASCII. -/
def Member.ascii (m : Member) : Prop :=
  (∀ c ∈ arg m.key m.keyLength, c < 128) ∧ (m.isString = true → ∀ c ∈ arg m.value m.valueLength, c < 128)

/-- Comma-separated concatenation. -/
def commaSep : List Bytes → Bytes
  | [] => []
  | [x] => x
  | x :: y :: t => x ++ str "," ++ commaSep (y :: t)

/-- A `struct l8w8jwt_claim` as such a member; `none` if the key (claim is skipped) or the value is NULL. -/
def member (c : Claim) : Option Member :=
  match c.key, c.value with
  | some k, some v => some { key := k.mem, keyLength := c.keyLength, value := v.mem, valueLength := c.valueLength,
                             isString := decide (c.type = L8W8JWT_CLAIM_TYPE_STRING) }
  | _, _ => none

/-- An array element that may be passed to `l8w8jwt_write_claims`: the key is NULL, or both strings are readable. -/
def claimOk (c : Claim) : Prop := c.key = none ∨ ∃ m, member c = some m ∧ m.ok

/-- The texts of the members of an array, in order; elements with NULL key have none. -/
def memberTexts (cs : List Claim) : List Bytes := (cs.filterMap member).map Member.text

/-- A reader for one JSON member with a string value: key, value and the text that follows. -/
def readMember (t : Bytes) : Option ((Bytes × Bytes) × Bytes) :=
  match t with
  | [] => none
  | q :: t =>
    if q ≠ 34 then none
    else match lexString t with
      | some (k, c :: q2 :: t) =>
        if c ≠ 58 ∨ q2 ≠ 34 then none
        else match lexString t with
          | some (v, t) => some ((k, v), t)
          | none => none
      | _ => none

/-- A reader for a comma-separated list of such members that takes up the whole text. -/
def readMembers : Nat → Bytes → Option (List (Bytes × Bytes))
  | 0, _ => none
  | f + 1, t =>
    match readMember t with
    | none => none
    | some (kv, []) => some [kv]
    | some (kv, c :: t) => if c = 44 then (readMembers f t).map (kv :: ·) else none

/-- The key of a claim as a C string. -/
def claimKey (c : Claim) : Bytes :=
  match c.key with
  | some b => cString b.mem
  | none => []

/-- The first index of a claim whose key satisfies `p`. -/
def findClaim (p : Bytes → Bool) : List Claim → Option Nat
  | [] => none
  | c :: t => if p (claimKey c) then some 0 else (findClaim p t).map (· + 1)

end L8w8jwt.Spec
