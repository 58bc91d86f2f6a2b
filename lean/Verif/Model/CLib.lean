/-!
# C library calls used by l8w8jwt

Bytes, byte strings, undefined behaviour and the C standard library functions the sources call.
Nothing in this file models a function of /repo; it models the functions of the C standard (C11 clause 7)
that /repo calls, with undefined behaviour as a distinct outcome.
-/

namespace L8w8jwt

/-- A `char`/`uint8_t` as stored in memory. -/
abbrev Byte := UInt8

/-- A byte string, or the memory from a pointer to the end of the object it points into. -/
abbrev Bytes := List UInt8

/-- ASCII string literal as bytes (without the terminating NUL). -/
def str (s : String) : Bytes := s.toList.map fun c => UInt8.ofNat c.toNat

/-- `2^64`: `size_t` is modelled as 64 bits wide. -/
abbrev sizeMod : Nat := 18446744073709551616

/-- The kinds of undefined behaviour the model distinguishes. -/
inductive UB where
  /-- read outside an object (or through a length that is larger than the object) -/
  | oobRead
  /-- write outside an object -/
  | oobWrite
  /-- NULL dereferenced -/
  | nullDeref
  /-- table index outside the table -/
  | badIndex
  /-- signed integer overflow -/
  | signedOverflow
  /-- argument of a `<ctype.h>` function outside `unsigned char` and `EOF` -/
  | badCtype
  /-- `free` of something that is not a live block -/
  | invalidFree
  deriving DecidableEq, Repr

/-- A computation without side effects that may be undefined. -/
abbrev Res := Except UB

/-- `p[i]`. -/
def rd (mem : Bytes) (i : Nat) : Res UInt8 :=
  match mem[i]? with
  | some b => .ok b
  | none => .error .oobRead

/-- The `n` bytes (or array elements) starting at `p` (what `memcpy`, a hash function, ... reads). -/
def rdN {α : Type} (mem : List α) (n : Nat) : Res (List α) :=
  if n ≤ mem.length then .ok (mem.take n) else .error .oobRead

/-- Dereferencing a possibly NULL pointer. -/
def deref {α : Type} (p : Option α) : Res α :=
  match p with
  | some a => .ok a
  | none => .error .nullDeref

/-- `strlen` (C11 7.24.6.3). -/
def strlen : Bytes → Res Nat
  | [] => .error .oobRead
  | b :: t => if b = 0 then .ok 0 else do let n ← strlen t; .ok (n + 1)

/-- `strchr(s, c)` for `c ≠ 0` (C11 7.24.5.2): index of the first `c` before the terminating NUL. -/
def strchr : Bytes → UInt8 → Res (Option Nat)
  | [], _ => .error .oobRead
  | b :: t, c =>
    if b = c then .ok (some 0)
    else if b = 0 then .ok none
    else do let r ← strchr t c; .ok (r.map (· + 1))

/-- `strncmp(a, b, n)` (C11 7.24.4.4): the difference of the first differing characters, as `unsigned char`. -/
def strncmp : Bytes → Bytes → Nat → Res Int
  | _, _, 0 => .ok 0
  | [], _, _ + 1 => .error .oobRead
  | _ :: _, [], _ + 1 => .error .oobRead
  | x :: a, y :: b, n + 1 =>
    if x ≠ y then .ok ((x.toNat : Int) - (y.toNat : Int))
    else if x = 0 then .ok 0
    else strncmp a b n

/-- `memcmp(a, b, n) != 0` (C11 7.24.4.1): both objects must have `n` bytes. -/
def memcmpNe (a b : Bytes) (n : Nat) : Res Bool := do
  let x ← rdN a n
  let y ← rdN b n
  .ok (x != y)

/-- `strncpy(dst, src, n)` (C11 7.24.2.4): the `n` bytes written to `dst`. `src` is the memory at the source
pointer. -/
def strncpy : Bytes → Nat → Res Bytes
  | _, 0 => .ok []
  | [], _ + 1 => .error .oobRead
  | c :: t, n + 1 =>
    if c = 0 then .ok (List.replicate (n + 1) 0)
    else do let r ← strncpy t n; .ok (c :: r)

/-- The bytes before the first NUL. -/
def cstr (mem : Bytes) : Bytes := mem.takeWhile (· != 0)

/-- Does `pat` occur as a contiguous part of `s`? -/
def hasInfix (pat : Bytes) : Bytes → Bool
  | [] => pat.isEmpty
  | c :: t => pat.isPrefixOf (c :: t) || hasInfix pat t

/-- `strstr(mem, pat) != NULL` (C11 7.24.5.7): `mem` must contain a NUL. -/
def strstrFound (mem pat : Bytes) : Res Bool := do
  let n ← strlen mem
  .ok (hasInfix pat (mem.take n))

/-- `isspace` in the "C" locale. -/
def isSpace (c : UInt8) : Bool := c = 32 || (9 ≤ c && c ≤ 13)

/-- `isdigit`. -/
def isDigit (c : UInt8) : Bool := 48 ≤ c && c ≤ 57

/-- Digits of `strtoll(.., 10)`: value of the longest digit prefix, continuing from `acc`. -/
def strtollDigits : Bytes → Nat → Res Nat
  | [], _ => .error .oobRead
  | c :: t, acc => if isDigit c then strtollDigits t (acc * 10 + (c.toNat - 48)) else .ok acc

/-- `LLONG_MAX` -/
abbrev llongMax : Int := 9223372036854775807
/-- `LLONG_MIN` -/
abbrev llongMin : Int := -9223372036854775808

/-- Saturation at the range of `long long` (C11 7.22.1.4p8). -/
def saturate (v : Int) : Int := if v > llongMax then llongMax else if v < llongMin then llongMin else v

/-- Optional sign and digits of `strtoll`. -/
def strtollSigned : Bytes → Res Int
  | [] => .error .oobRead
  | c :: t =>
    if c = 45 then do let n ← strtollDigits t 0; .ok (saturate (-(n : Int)))
    else if c = 43 then do let n ← strtollDigits t 0; .ok (saturate (n : Int))
    else do let n ← strtollDigits (c :: t) 0; .ok (saturate (n : Int))

/-- `strtoll(s, NULL, 10)` (C11 7.22.1.4): skip white space, optional sign, digits, saturate; 0 without digits. -/
def strtoll : Bytes → Res Int
  | [] => .error .oobRead
  | c :: t => if isSpace c then strtoll t else strtollSigned (c :: t)

/-- Value of a plain `char` after promotion to `int`. -/
def charVal (signed : Bool) (c : UInt8) : Int :=
  if signed && 128 ≤ c.toNat then (c.toNat : Int) - 256 else (c.toNat : Int)

/-- `tolower` in the "C" locale (C11 7.4p1: the argument must be an `unsigned char` value or `EOF` = -1). -/
def tolower (v : Int) : Res Int :=
  if v = -1 then .ok (-1)
  else if v < 0 ∨ 255 < v then .error .badCtype
  else if 65 ≤ v ∧ v ≤ 90 then .ok (v + 32)
  else .ok v

/-- Decimal digits of `n`, most significant first, with recursion depth at most `fuel`
(`fuel = n` always suffices). -/
def decimalAux : Nat → Nat → Bytes
  | 0, n => [UInt8.ofNat (48 + n % 10)]
  | f + 1, n => if n < 10 then [UInt8.ofNat (48 + n)] else decimalAux f (n / 10) ++ [UInt8.ofNat (48 + n % 10)]

/-- What `printf("%" PRIu64, n)` prints. -/
def decimal (n : Nat) : Bytes := decimalAux n n

/-- `snprintf(buf, size, "%" PRIu64, n)` for `size ≥ 1`: the bytes written, including the NUL (C11 7.21.6.5). -/
def snprintfU64 (size n : Nat) : Bytes := (decimal n).take (size - 1) ++ [0]

/-- A buffer of `n` bytes that starts with `b` and is otherwise zero. -/
def padTo (n : Nat) (b : Bytes) : Bytes := b ++ List.replicate (n - b.length) 0

/-- Overwrite `mem` with `b` starting at offset `off`; the write must stay inside the object. -/
def wrAt (mem : Bytes) (off : Nat) (b : Bytes) : Res Bytes :=
  if off + b.length ≤ mem.length then .ok (mem.take off ++ b ++ mem.drop (off + b.length)) else .error .oobWrite

end L8w8jwt
