import Verif.Spec.Json
/-!
# The grammar of JSON texts (RFC 8259 sections 2-7), independent of the model
-/

namespace L8w8jwt.Spec

/-- Section 2: insignificant whitespace. -/
def JWs (t : Bytes) : Prop := ∀ c ∈ t, c = 32 ∨ c = 9 ∨ c = 10 ∨ c = 13

/-- Section 7: what may stand between the quotation marks of a string. -/
def JStr (t : Bytes) : Prop := ∃ v, lexString (t ++ [34]) = some (v, [])

/-- One or more decimal digits. -/
def JDigits (t : Bytes) : Prop := t ≠ [] ∧ ∀ c ∈ t, 48 ≤ c ∧ c ≤ 57

/-- Section 6: numbers. -/
def JNum (t : Bytes) : Prop := ∃ sgn int frac ex, t = sgn ++ int ++ frac ++ ex ∧ (sgn = [] ∨ sgn = [45]) ∧
  (int = [48] ∨ JDigits int ∧ int.head? ≠ some 48) ∧ (frac = [] ∨ ∃ d, frac = 46 :: d ∧ JDigits d) ∧
  (ex = [] ∨ ∃ e s d, ex = e :: (s ++ d) ∧ (e = 101 ∨ e = 69) ∧ (s = [] ∨ s = [43] ∨ s = [45]) ∧ JDigits d)

/-- The syntactic categories: values, non-empty lists of values, non-empty lists of members. -/
inductive JKind where
  | value | elems | members

/-- Texts of a category. -/
inductive JText : JKind → Bytes → Prop where
  | str {t} : JStr t → JText .value (34 :: (t ++ [34]))
  | num {t} : JNum t → JText .value t
  | lit {t} : t ∈ [str "true", str "false", str "null"] → JText .value t
  | arr0 {w} : JWs w → JText .value (91 :: (w ++ [93]))
  | arr {t} : JText .elems t → JText .value (91 :: (t ++ [93]))
  | obj0 {w} : JWs w → JText .value (123 :: (w ++ [125]))
  | obj {t} : JText .members t → JText .value (123 :: (t ++ [125]))
  | elem {a v b} : JWs a → JText .value v → JWs b → JText .elems (a ++ v ++ b)
  | elems {a v b t} : JWs a → JText .value v → JWs b → JText .elems t → JText .elems (a ++ v ++ b ++ 44 :: t)
  | mem {a k b c v d} : JWs a → JStr k → JWs b → JWs c → JText .value v → JWs d →
      JText .members (a ++ 34 :: (k ++ 34 :: (b ++ 58 :: (c ++ v ++ d))))
  | mems {a k b c v d t} : JWs a → JStr k → JWs b → JWs c → JText .value v → JWs d → JText .members t →
      JText .members (a ++ 34 :: (k ++ 34 :: (b ++ 58 :: (c ++ v ++ d ++ 44 :: t))))

/-- The members of an object: the raw key and the raw value of each. -/
inductive JMembers : Bytes → List (Bytes × Bytes) → Prop where
  | mem {a k b c v d} : JWs a → JStr k → JWs b → JWs c → JText .value v → JWs d →
      JMembers (a ++ 34 :: (k ++ 34 :: (b ++ 58 :: (c ++ v ++ d)))) [(k, v)]
  | mems {a k b c v d t l} : JWs a → JStr k → JWs b → JWs c → JText .value v → JWs d → JMembers t l →
      JMembers (a ++ 34 :: (k ++ 34 :: (b ++ 58 :: (c ++ v ++ d ++ 44 :: t)))) ((k, v) :: l)

/-- A JSON text (with surrounding whitespace) that is an object with the given members. -/
inductive JObject : Bytes → List (Bytes × Bytes) → Prop where
  | empty {a w b} : JWs a → JWs w → JWs b → JObject (a ++ 123 :: (w ++ 125 :: b)) []
  | full {a t l b} : JWs a → JMembers t l → JWs b → JObject (a ++ 123 :: (t ++ 125 :: b)) l

/-- Texts of a category with the number of values and names in them. -/
inductive JSize : JKind → Bytes → Nat → Prop where
  | str {t} : JStr t → JSize .value (34 :: (t ++ [34])) 1
  | num {t} : JNum t → JSize .value t 1
  | lit {t} : t ∈ [str "true", str "false", str "null"] → JSize .value t 1
  | arr0 {w} : JWs w → JSize .value (91 :: (w ++ [93])) 1
  | arr {t n} : JSize .elems t n → JSize .value (91 :: (t ++ [93])) (n + 1)
  | obj0 {w} : JWs w → JSize .value (123 :: (w ++ [125])) 1
  | obj {t n} : JSize .members t n → JSize .value (123 :: (t ++ [125])) (n + 1)
  | elem {a v b n} : JWs a → JSize .value v n → JWs b → JSize .elems (a ++ v ++ b) n
  | elems {a v b t n m} : JWs a → JSize .value v n → JWs b → JSize .elems t m → JSize .elems (a ++ v ++ b ++ 44 :: t) (n + m)
  | mem {a k b c v d n} : JWs a → JStr k → JWs b → JWs c → JSize .value v n → JWs d →
      JSize .members (a ++ 34 :: (k ++ 34 :: (b ++ 58 :: (c ++ v ++ d)))) (n + 1)
  | mems {a k b c v d t n m} : JWs a → JStr k → JWs b → JWs c → JSize .value v n → JWs d → JSize .members t m →
      JSize .members (a ++ 34 :: (k ++ 34 :: (b ++ 58 :: (c ++ v ++ d ++ 44 :: t)))) (n + 1 + m)

/-- The number of values and names in a list of members. -/
inductive PairsSize : List (Bytes × Bytes) → Nat → Prop where
  | nil : PairsSize [] 0
  | cons {k v l n m} : JSize .value v n → PairsSize l m → PairsSize ((k, v) :: l) (n + 1 + m)

/-- The value of the text between the quotation marks of a string. -/
def jsonString (t : Bytes) : Option Bytes :=
  match lexString (t ++ [34]) with
  | some (v, []) => some v
  | _ => none

/-- The string has no `\uXXXX` escape sequence. -/
def noUni : Bytes → Bool
  | [] => true
  | [_] => true
  | c :: e :: t => if c = 92 then e != 117 && noUni t else noUni (e :: t)

/-- Is the value an array or an object? -/
def composite (v : Bytes) : Bool := v.head? == some 91 || v.head? == some 123

end L8w8jwt.Spec
