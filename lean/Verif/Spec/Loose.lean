import Verif.Spec.JsonClaims
import Verif.Spec.Decode
import Verif.Spec.Sched
/-!
# Relaxed JSON: the texts the decoder takes header and payload from, independent of the model

The decoder does not insist on JSON. What it accepts are sequences of items separated by anything made of white space, colons
and commas, where an item is a string, a word (any other run of printable characters), or a sequence of items in braces or
brackets. Strings may contain control characters. The claims are the items of the first item (which must be in braces)
followed by the remaining items, two by two.
-/

namespace L8w8jwt.Spec

/-- White space, colon, comma. -/
def gapChar (c : UInt8) : Bool := c == 32 || c == 9 || c == 10 || c == 13 || c == 58 || c == 44

/-- What ends a word. -/
def stopChar (c : UInt8) : Bool := gapChar c || c == 93 || c == 125

/-- The characters of a word: printable, and not the end of one. -/
def wordChar (c : UInt8) : Bool := !stopChar c && decide (32 ≤ c) && decide (c < 127)

/-- A word starts with a character that starts nothing else. -/
def Word (w : Bytes) : Prop :=
  ∃ c t, w = c :: t ∧ wordChar c = true ∧ c ≠ 34 ∧ c ≠ 91 ∧ c ≠ 123 ∧ ∀ x ∈ t, wordChar x = true

/-- What may stand between quotation marks. -/
inductive Quoted : Bytes → Prop where
  | nil : Quoted []
  | plain {c t} : c ≠ 34 → c ≠ 92 → Quoted t → Quoted (c :: t)
  | esc {e t} : (simpleEscape e).isSome = true → Quoted t → Quoted (92 :: e :: t)
  | hex {w x y z t} : (hexDigit w).isSome = true → (hexDigit x).isSome = true → (hexDigit y).isSome = true →
      (hexDigit z).isSome = true → Quoted t → Quoted (92 :: 117 :: w :: x :: y :: z :: t)

/-- The text is empty or starts with something that ends a word. -/
def Stops (t : Bytes) : Prop := ∀ c, t.head? = some c → stopChar c = true

/-- An item: its text, and the number of items in it (including itself). -/
structure Item where
  text : Bytes
  size : Nat
  deriving DecidableEq, Repr

/-- The number of items in a sequence, nested ones included. -/
def total (l : List Item) : Nat := (l.map Item.size).sum

/-- Sequences of items. -/
inductive Items : Bytes → List Item → Prop where
  | nil : Items [] []
  | gap {c t l} : gapChar c = true → Items t l → Items (c :: t) l
  | string {b t l} : Quoted b → Items t l → Items (34 :: (b ++ 34 :: t)) (⟨34 :: (b ++ [34]), 1⟩ :: l)
  | word {w t l} : Word w → Stops t → Items t l → Items (w ++ t) (⟨w, 1⟩ :: l)
  | array {a t k l} : Items a k → Items t l → Items (91 :: (a ++ 93 :: t)) (⟨91 :: (a ++ [93]), 1 + total k⟩ :: l)
  | object {a t k l} : Items a k → Items t l → Items (123 :: (a ++ 125 :: t)) (⟨123 :: (a ++ [125]), 1 + total k⟩ :: l)

/-- Like `Items`, but braces and brackets need not match. `n` is the number of strings, words, and opening braces and
brackets. -/
inductive Lexes : Bytes → Nat → Prop where
  | nil : Lexes [] 0
  | gap {c t n} : stopChar c = true → Lexes t n → Lexes (c :: t) n
  | opening {c t n} : (c = 91 ∨ c = 123) → Lexes t n → Lexes (c :: t) (n + 1)
  | string {b t n} : Quoted b → Lexes t n → Lexes (34 :: (b ++ 34 :: t)) (n + 1)
  | word {w t n} : Word w → Stops t → Lexes t n → Lexes (w ++ t) (n + 1)

/-- The letters of `true`, `false` and `null`. -/
def letter (c : UInt8) : Bool := (str "aeflnrstu").contains c

/-- The claim type the decoder gives to an item; `num` classifies numbers (1: integer, 2: other number). Every word of five
characters that starts with `true` counts as a boolean. -/
def itemType (num : Bytes → Nat) (v : Bytes) : Option Int :=
  if v.head? = some 34 then some 0
  else if v.head? = some 91 then some 5
  else if v.head? = some 123 then some 6
  else if v = str "true" ∨ v = str "false" ∨ (v.length = 5 ∧ v.take 4 = str "true") then some 3
  else if v = str "null" then some 4
  else if num v = 1 then some 1
  else if num v = 2 then some 2
  else none

/-- The claim made of two items. -/
structure ItemClaim (num : Bytes → Nat) (k v : Item) (d : DClaim) : Prop where
  type : itemType num v.text = some d.type
  key : Unescapes (unquote k.text) d.key
  string : v.text.head? = some 34 → Unescapes (unquote v.text) d.value
  other : v.text.head? ≠ some 34 → d.value = v.text

/-- Which slots behind the last token the decoder looks at: none, the first one, or the first one and perhaps the second. -/
inductive Behind where
  | none | one | two
  deriving DecidableEq, Repr

/-- Taking items two by two: did it work, the claims found, and the slots looked at. -/
inductive Pairs (num : Bytes → Nat) : List Item → Bool → List DClaim → Behind → Prop where
  | nil : Pairs num [] true [] .none
  | single {k} : k.size = 1 → Pairs num [k] false [] .one
  | nested {k} : k.size ≠ 1 → Pairs num [k] false [] .none
  | key {k v l} : k.text.head? ≠ some 34 → Pairs num (k :: v :: l) false [] .none
  | value {k v l} : k.text.head? = some 34 → itemType num v.text = none → Pairs num (k :: v :: l) false [] .none
  | last {k v d} : k.text.head? = some 34 → ItemClaim num k v d → composite v.text = true → Pairs num [k, v] true [d] .two
  | cons {k v l d ok ds b} : k.text.head? = some 34 → ItemClaim num k v d → (l = [] → composite v.text = false) →
      Pairs num l ok ds b → Pairs num (k :: v :: l) ok (d :: ds) b

/-- What there is in a text: is it accepted, the claims found, the number of items (nested ones included), and the slots
behind them that the decoder looks at. The text has nothing but gaps and closing braces and brackets, or it is a sequence of
items of which the first is in braces. -/
inductive Parsed (num : Bytes → Nat) (t : Bytes) : Bool → List DClaim → Nat → Behind → Prop where
  | empty : (∀ c ∈ t, stopChar c = true) → Parsed num t true [] 0 .none
  | noItems {c} : c ∈ t → stopChar c = false → (∀ l, ¬ Items t l) → Parsed num t false [] 0 .none
  | noObject {v l} : Items t (v :: l) → v.text.head? ≠ some 123 → Parsed num t false [] (total (v :: l)) .none
  | object {v l a k ok ds b} : Items t (v :: l) → v.text = 123 :: (a ++ [125]) → Items a k → Pairs num (k ++ l) ok ds b →
      Parsed num t ok ds (1 + total (k ++ l)) b

/-- The slots that are looked at exist: the array has 64 slots, or as many as there are items. -/
def Behind.Fits (n : Nat) : Behind → Prop
  | .none => True
  | .one => n ≤ 63
  | .two => n ≤ 62

/-- At most 62 items, so that no slot outside the array is looked at. -/
def FewItems (t : Bytes) : Prop := ∀ n, Lexes t n → n ≤ 62

/-- More than 64 items, but braces and brackets do not match. -/
def Leaky (t : Bytes) : Prop := (∃ n, Lexes t n ∧ 64 < n) ∧ ∀ l, ¬ Items t l

/-- The text the decoder reads from a base64url text: up to the first NUL. -/
def readText (a : Bytes) : Bytes := cString (jsonOf a)

/-- A text whose claims are parsed without looking at slots that do not exist. -/
def Roomy (num : Bytes → Nat) (t : Bytes) : Prop := ∀ ok ds n b, Parsed num t ok ds n b → b.Fits n

/-- A token with a leaky header or payload. -/
def LeakyToken (tok : Bytes) : Prop := ∃ a b, Parts tok a b ∧ (Leaky (readText a) ∨ Leaky (readText b))

/-- Header and payload together have at most 16 claims, the initial capacity of the claims buffer (and parsing them needs no slots
that do not exist). -/
def FewClaims (env : Env) (tok : Bytes) : Prop := ∀ a b, Parts tok a b → ∃ ok1 ds1 n1 b1 ok2 ds2 n2 b2,
  Parsed env.checknum (readText a) ok1 ds1 n1 b1 ∧ b1.Fits n1 ∧ Parsed env.checknum (readText b) ok2 ds2 n2 b2 ∧ b2.Fits n2 ∧
  ds1.length + ds2.length ≤ 16

/-- The text makes the parser read behind the token array. -/
def OverReads (num : Bytes → Nat) (t : Bytes) : Prop := ∃ ok ds n b, Parsed num t ok ds n b ∧ 64 ≤ n ∧ b ≠ .none

/-- Conditions on the caller and the token under which decoding is proved to be defined. -/
structure Tame (env : Env) (s : Sched) (p : DecParams) (tok : Bytes) : Prop where
  /-- in SMALL_STACK builds no allocation fails -/
  stack : env.smallStack = false ∨ ∀ k, s.failAlloc k = false
  /-- the key memory is readable -/
  key : VerKeyReadable p
  /-- there is room for a terminator in the key buffer -/
  fits : p.alg ≠ -1 → (verKey p).length < 8192 ∨ (verKey p).getLast? = some 0
  /-- the signature is long enough -/
  sig : p.alg ≠ -1 → ∀ a b c d, ThreeParts tok a b c → b64Decode true c = some d → SigFits env p d
  /-- parsing header and payload needs no token slots that do not exist (at most 62 items suffice) -/
  tokens : ∀ a b, Parts tok a b → Roomy env.checknum (readText a) ∧ Roomy env.checknum (readText b)
  /-- the expected claim values are readable -/
  expect : ExpectOk p
  /-- `time_t` arithmetic does not overflow -/
  now : NowOk env.now
  /-- `typ` is not validated, or `char` is unsigned, or the comparison comes to no byte that is not ASCII -/
  typ : p.validateTyp = none ∨ env.charSigned = false ∨ ((s.noGrowFail ∨ FewClaims env tok) ∧ ∀ a b, Parts tok a b →
    ∀ ds1 n1 b1 ds2 n2 b2, Parsed env.checknum (readText a) true ds1 n1 b1 → Parsed env.checknum (readText b) true ds2 n2 b2 →
      TypDefined env p (ds1 ++ ds2))

end L8w8jwt.Spec
