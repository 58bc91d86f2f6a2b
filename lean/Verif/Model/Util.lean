import Verif.Model.CLib
/-!
# src/util.c
-/

namespace L8w8jwt

/-- src/util.c:47: the expression `(hexstr[i] % 32 + 9) % 25 * 16 + (hexstr[i + 1] % 32 + 9) % 25` and its conversion
to `unsigned char`. `%` on `int` truncates towards zero (`Int.tmod`); plain `char` may be signed. -/
def hexPair (charSigned : Bool) (a b : UInt8) : UInt8 :=
  let d (c : UInt8) : Int := Int.tmod (Int.tmod (charVal charSigned c) 32 + 9) 25
  UInt8.ofNat ((d a * 16 + d b) % 256).toNat

/-- src/util.c:45-48: the loop, on the first `hl` characters (an even number of them). -/
def hexLoop (charSigned : Bool) : Bytes → Bytes
  | a :: b :: t => hexPair charSigned a b :: hexLoop charSigned t
  | _ => []

/-- What `l8w8jwt_hexstr2bin` leaves behind: return code, the bytes written to `output` from its start, and
`*output_length` (`none`: not written). -/
structure HexOut where
  rc : Nat
  written : Bytes := []
  len : Option Nat := none
  deriving DecidableEq, Repr

/-- src/util.c:24-58 `l8w8jwt_hexstr2bin`. `outSpace`: `none` if `output` is NULL, otherwise the real size of the object
it points to (so that writing outside is visible even if `output_size` lies). -/
def hexstr2bin (charSigned : Bool) (hexstr : Option Bytes) (hexstrLength : Nat) (outSpace : Option Nat)
    (outputSize : Nat) (lenNull : Bool) : Res HexOut :=
  match hexstr, outSpace with
  | some mem, some space =>
    if hexstrLength = 0 then .ok { rc := 1 }
    else do
      let last ← rd mem (hexstrLength - 1)
      let hl := if last ≠ 0 then hexstrLength else hexstrLength - 1
      if hl % 2 ≠ 0 then .ok { rc := 2 }
      else
        let finalLength := hl / 2
        if outputSize < finalLength + 1 then .ok { rc := 3 }
        else do
          let d ← rdN mem hl
          let w := hexLoop charSigned d ++ [0]
          if space < w.length then .error .oobWrite
          else .ok { rc := 0, written := w, len := if lenNull then none else some finalLength }
  | _, _ => .ok { rc := 1 }

/-- src/util.c:70-80: the `while` loop. `cmp < n` is tracked as the number `k` of comparisons left, `ret` is the value of
the variable when the loop condition is evaluated. The condition reads `*str1` first and `*str2` only if `*str1` is NUL,
both before `cmp < n`. -/
def strncmpicLoop (charSigned : Bool) : Bytes → Bytes → Nat → Int → Res Int
  | [], _, _, _ => .error .oobRead
  | a :: s, t, k, ret =>
    match t with
    | [] => if a = 0 then .error .oobRead else if k = 0 then .ok ret else .error .oobRead
    | b :: t =>
      if a = 0 ∧ b = 0 then .ok ret
      else
        match k with
        | 0 => .ok ret
        | k + 1 => do
          let x ← tolower (charVal charSigned a)
          let y ← tolower (charVal charSigned b)
          if x - y ≠ 0 then .ok (x - y) else strncmpicLoop charSigned s t k (x - y)

/-- src/util.c:60-83 `l8w8jwt_strncmpic`. -/
def strncmpic (charSigned : Bool) (str1 str2 : Option Bytes) (n : Nat) : Res Int :=
  match str1, str2 with
  | some a, some b => strncmpicLoop charSigned a b n (-1)
  | _, _ => .ok (-1)

/-- src/version.c:30-33 `l8w8jwt_get_version_number`; version.h:33. -/
def versionNumber : Nat := 234

/-- src/version.c:35-42 `l8w8jwt_get_version_string`: the bytes written to `out`; version.h:38. -/
def versionString : Bytes := str "2.3.4" ++ [0]

end L8w8jwt
