import Verif.Model.CLib
/-!
# Specifications for util.c (independent of the model)
-/

namespace L8w8jwt.Spec

/-- Value of a hexadecimal digit. -/
def hexDigit (c : UInt8) : Option Nat :=
  if 48 ≤ c ∧ c ≤ 57 then some (c.toNat - 48)        -- 0-9
  else if 65 ≤ c ∧ c ≤ 70 then some (c.toNat - 55)   -- A-F
  else if 97 ≤ c ∧ c ≤ 102 then some (c.toNat - 87)  -- a-f
  else none

/-- The bytes a string of hex digits denotes; `none` if a character is not a digit or the number of digits is odd. -/
def hexBytes : Bytes → Option Bytes
  | [] => some []
  | [_] => none
  | a :: b :: t =>
    match hexDigit a, hexDigit b, hexBytes t with
    | some x, some y, some r => some (UInt8.ofNat (x * 16 + y) :: r)
    | _, _, _ => none

/-- What a character counts for where a hexadecimal digit is expected: only its five lowest bits matter. From 48 (`0`) to 63 and
from 80 to 95 and so on it counts 0 to 15, from 64 to 79 (`A` is 65) and so on 9 to 24. Where `char` is signed, characters from
128 on count 9 down to -22. -/
def laxDigit (charSigned : Bool) (c : UInt8) : Int :=
  if charSigned = true ∧ 128 ≤ c then 9 - ((256 - c.toNat) % 32 : Nat)
  else if c.toNat % 32 < 16 then c.toNat % 32 + 9
  else c.toNat % 32 - 16

/-- The bytes any characters stand for where hexadecimal digits are expected, two by two. -/
def laxHex (charSigned : Bool) : Bytes → Bytes
  | a :: b :: t => UInt8.ofNat ((laxDigit charSigned a * 16 + laxDigit charSigned b) % 256).toNat :: laxHex charSigned t
  | _ => []

/-- ASCII lower case. -/
def lower (c : UInt8) : UInt8 := if 65 ≤ c ∧ c ≤ 90 then c + 32 else c

/-- The C string at the start of an object: the bytes before the first NUL. -/
def cString (mem : Bytes) : Bytes := mem.takeWhile (· != 0)

/-- Equality of the first `n` characters up to ASCII case. -/
def equalIgnoreCase (a b : Bytes) (n : Nat) : Prop :=
  ((cString a).take n).map lower = ((cString b).take n).map lower

/-- Comparing up to `n` characters of two texts ignoring case comes to a byte from 128 to 254: all characters before it agree.
Where `char` is signed, such a byte is a negative value other than `EOF`, for which `tolower` is undefined. -/
def ReachesHigh (x y : Bytes) (n : Nat) : Prop :=
  ∃ i c, i < n ∧ (x.take i).map lower = (y.take i).map lower ∧ (x[i]? = some c ∨ y[i]? = some c) ∧ 128 ≤ c ∧ c ≠ 255

end L8w8jwt.Spec
