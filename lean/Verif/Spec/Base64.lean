import Verif.Model.CLib
import Verif.Spec.Codes
/-!
# RFC 4648 base64 (independent of the model)
-/

namespace L8w8jwt.Spec

/-- RFC 4648 Table 1 (`url = false`) and Table 2 (`url = true`): the character for a 6-bit value. -/
def alphabet (url : Bool) (i : Nat) : UInt8 :=
  if i < 26 then UInt8.ofNat (65 + i)            -- A-Z
  else if i < 52 then UInt8.ofNat (97 + (i - 26))  -- a-z
  else if i < 62 then UInt8.ofNat (48 + (i - 52))  -- 0-9
  else if i = 62 then (if url then 45 else 43)     -- - or +
  else (if url then 95 else 47)                    -- _ or /

/-- RFC 4648 section 4: 24-bit groups of three octets are four 6-bit groups; a final group of 8 or 16 bits is padded with
zero bits to 12 or 18 bits. No pad characters. -/
def b64 (url : Bool) : Bytes → Bytes
  | a :: b :: c :: t =>
    let n := a.toNat * 65536 + b.toNat * 256 + c.toNat
    alphabet url (n / 262144) :: alphabet url (n / 4096 % 64) :: alphabet url (n / 64 % 64) :: alphabet url (n % 64)
      :: b64 url t
  | [a, b] =>
    let n := (a.toNat * 256 + b.toNat) * 4
    [alphabet url (n / 4096), alphabet url (n / 64 % 64), alphabet url (n % 64)]
  | [a] =>
    let n := a.toNat * 16
    [alphabet url (n / 64), alphabet url (n % 64)]
  | [] => []

/-- Section 4 encoding with `'='` padding to a multiple of four characters. -/
def b64Padded (bs : Bytes) : Bytes :=
  let t := b64 false bs
  t ++ List.replicate ((4 - t.length % 4) % 4) 61

/-- A newline after every 72 characters and at the end of an incomplete last line. `k`: characters on the current line. -/
def wrap72 : Bytes → Nat → Bytes
  | [], k => if k = 0 then [] else [10]
  | c :: t, k => if k = 71 then c :: 10 :: wrap72 t 0 else c :: wrap72 t (k + 1)

/-- The text the encoder is documented to produce. -/
def b64Text (url : Bool) (bs : Bytes) : Bytes := if url then b64 true bs else wrap72 (b64Padded bs) 0

/-- The 6-bit value of an alphabet character; `none` for every other byte. -/
def b64Value (url : Bool) (c : UInt8) : Option Nat :=
  if 65 ≤ c ∧ c ≤ 90 then some (c.toNat - 65)
  else if 97 ≤ c ∧ c ≤ 122 then some (c.toNat - 97 + 26)
  else if 48 ≤ c ∧ c ≤ 57 then some (c.toNat - 48 + 52)
  else if c = (if url then 45 else 43) then some 62
  else if c = (if url then 95 else 47) then some 63
  else none

/-- A character that takes part in decoding: in the alphabet, or `'='`. -/
def relevant (url : Bool) (c : UInt8) : Bool := (b64Value url c).isSome || c == 61

/-- The three octets of a group of four characters (`'='` counts as zero bits). -/
def groupBytes (url : Bool) (a b c d : UInt8) : Bytes :=
  let v (x : UInt8) : Nat := (b64Value url x).getD 0
  let n := v a * 262144 + v b * 4096 + v c * 64 + v d
  [UInt8.ofNat (n / 65536), UInt8.ofNat (n / 256 % 256), UInt8.ofNat (n % 256)]

/-- Decoding of relevant characters in groups of four. The first group containing `'='` is the last one; it must contain
at most two and loses one octet per `'='`. -/
def decodeGroups (url : Bool) : Bytes → Option Bytes
  | a :: b :: c :: d :: t =>
    let p := [a, b, c, d].count 61
    if p = 0 then (decodeGroups url t).map (groupBytes url a b c d ++ ·)
    else if p ≤ 2 then some ((groupBytes url a b c d).take (3 - p))
    else none
  | _ => some []

/-- The decoder's documented behaviour on a text: `none` = invalid. In url mode the padding may be missing. -/
def b64Decode (url : Bool) (text : Bytes) : Option Bytes :=
  let r := text.filter (relevant url)
  if r.length = 0 ∨ r.length % 4 = 1 ∨ (url = false ∧ r.length % 4 ≠ 0) then none
  else decodeGroups url (r ++ List.replicate ((4 - r.length % 4) % 4) 61)

/-- The octets of the final padded group that are not part of the decoded data. RFC 4648 section 3.5: encoders set these
bits to zero, decoders may ignore them. -/
def leftoverGroups (url : Bool) : Bytes → Bytes
  | a :: b :: c :: d :: t =>
    let p := [a, b, c, d].count 61
    if p = 0 then leftoverGroups url t else (groupBytes url a b c d).drop (3 - p)
  | _ => []

/-- The unused octets of a text. -/
def leftover (url : Bool) (text : Bytes) : Bytes :=
  let r := text.filter (relevant url)
  leftoverGroups url (r ++ List.replicate ((4 - r.length % 4) % 4) 61)

/-- The return code of the encoder (base64.h): `null`: one of the pointers is NULL; `n`: the length; `oom`: `malloc` fails. -/
def b64EncCode (null : Bool) (n : Nat) (oom : Bool) : Nat :=
  if null then Code.nullArg else if n = 0 then Code.invalidArg else if 2 ^ 62 ≤ n then Code.overflow
  else if oom then Code.outOfMem else Code.success

/-- The return code of the decoder: texts with an impossible number of characters are refused before memory is allocated. -/
def b64DecCode (url null : Bool) (text : Bytes) (oom : Bool) : Nat :=
  let n := (text.filter (relevant url)).length
  if null then Code.nullArg
  else if n = 0 ∨ n % 4 = 1 ∨ (url = false ∧ n % 4 ≠ 0) then Code.invalidArg
  else if oom then Code.outOfMem
  else if b64Decode url text = none then Code.invalidArg
  else Code.success

end L8w8jwt.Spec
