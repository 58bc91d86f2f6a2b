import Verif.Model.Heap
import Verif.Model.RetCodes
/-!
# src/base64.c
-/

namespace L8w8jwt

/-- src/base64.c:112-113 `TABLE` (`url = false`) and `URL_SAFE_TABLE` (`url = true`). -/
def b64Table (url : Bool) : Bytes :=
  if url then str "ABCDEFGHIJKLMNOPQRSTUVWXYZabcdefghijklmnopqrstuvwxyz0123456789-_"
  else str "ABCDEFGHIJKLMNOPQRSTUVWXYZabcdefghijklmnopqrstuvwxyz0123456789+/"

/-- `table[i]`. Every index in the code is a 6-bit value, the table has 64 entries; the default is never used
(theorem `tbl_eq_spec` in Proofs/Base64Enc.lean determines all 64 values). -/
def tbl (url : Bool) (i : Nat) : UInt8 := (b64Table url).getD i 0

/-- src/base64.c:127-130: the size of the output allocation, `size_t` arithmetic modulo 2^64. -/
def b64OutSize (n : Nat) : Nat :=
  let olen := (n * 4 % sizeMod / 3 + 4) % sizeMod
  let olen := (olen + olen / 72) % sizeMod
  (olen + 1) % sizeMod

/-- `INT_MAX` -/
abbrev intMax : Nat := 2147483647

/-- src/base64.c:150-165: the `while (end - in >= 3)` loop. Arguments: remaining input, `line_length`. Result: the
characters written, the remaining input (fewer than 3 bytes) and the final `line_length`. `line_length` is an `int`:
exceeding `INT_MAX` is undefined. -/
def b64EncLoop (url : Bool) : Bytes → Nat → Res (Bytes × Bytes × Nat)
  | a :: b :: c :: rest, line =>
    let q : Bytes := [tbl url (a.toNat >>> 2),
      tbl url (((a.toNat &&& 0x03) <<< 4) ||| (b.toNat >>> 4)),
      tbl url (((b.toNat &&& 0x0f) <<< 2) ||| (c.toNat >>> 6)),
      tbl url (c.toNat &&& 0x3f)]
    if intMax < line + 4 then .error .signedOverflow
    else if 72 ≤ line + 4 && !url then do
      let (o, r, l) ← b64EncLoop url rest 0
      .ok (q ++ 10 :: o, r, l)
    else do
      let (o, r, l) ← b64EncLoop url rest (line + 4)
      .ok (q ++ o, r, l)
  | rest, line => .ok ([], rest, line)

/-- src/base64.c:167-193: the tail after the loop: characters written for the 0, 1 or 2 remaining bytes, `sub`, and the
final `line_length`. In url mode the padding positions are written as NUL and subtracted from the length again. -/
def b64EncTail (url : Bool) (rest : Bytes) (line : Nat) : Res (Bytes × Nat × Nat) :=
  let pad : UInt8 := if url then 0 else 61
  match rest with
  | [] => .ok ([], 0, line)
  | [a] =>
    if intMax < line + 4 then .error .signedOverflow
    else .ok ([tbl url (a.toNat >>> 2), tbl url ((a.toNat &&& 0x03) <<< 4), pad, pad],
      (if url then 2 else 0), line + 4)
  | a :: b :: _ =>
    if intMax < line + 4 then .error .signedOverflow
    else .ok ([tbl url (a.toNat >>> 2), tbl url (((a.toNat &&& 0x03) <<< 4) ||| (b.toNat >>> 4)),
        tbl url ((b.toNat &&& 0x0f) <<< 2), pad],
      (if url then 1 else 0), line + 4)

/-- src/base64.c:143-201: everything written to the output buffer (including the final NUL), and `*out_length`. All
writes are `*pos++ = ..` from the start of the buffer, so the list of bytes written determines the accesses. -/
def b64EncBody (url : Bool) (data : Bytes) : Res (Bytes × Nat) := do
  let (o, rest, line) ← b64EncLoop url data 0
  let (t, sub, line) ← b64EncTail url rest line
  let nl : Bytes := if line ≠ 0 && !url then [10] else []
  let text := o ++ t ++ nl
  .ok (text ++ [0], text.length - sub)

/-- What a call left behind: return code, `*out` (`none`: not written), `*out_length` (`none`: not written). -/
structure BufOut where
  rc : Nat
  out : Option Ptr := none
  len : Option Nat := none
  deriving DecidableEq, Repr

/-- src/base64.c:115-204 `l8w8jwt_base64_encode`. `outNull`/`lenNull`: the out arguments are NULL. The written bytes
must fit into the allocation of `b64OutSize` bytes. -/
def base64Encode (url : Bool) (data : Option Bytes) (n : Nat) (outNull lenNull : Bool) : M BufOut :=
  match data with
  | none => pure { rc := L8W8JWT_NULL_ARG }
  | some mem =>
    if outNull || lenNull then pure { rc := L8W8JWT_NULL_ARG }
    else if n = 0 then pure { rc := L8W8JWT_INVALID_ARG }
    else if b64OutSize n < n then pure { rc := L8W8JWT_OVERFLOW }
    else do
      let p ← alloc []
      match p with
      | none => pure { rc := L8W8JWT_OUT_OF_MEM, out := some none }
      | some blk => do
        let d ← M.lift (rdN mem n)
        let (written, len) ← M.lift (b64EncBody url d)
        if b64OutSize n < written.length then M.lift (.error .oobWrite)
        else pure { rc := L8W8JWT_SUCCESS, out := some (some { blk with mem := written }), len := some len }

/-- src/base64.c:227-237: the reverse table: 0x80 everywhere, then the 64 alphabet characters, then `'='`. -/
def dtable (url : Bool) : Bytes :=
  ((List.range 64).foldl (fun d i => d.set (tbl url i).toNat (UInt8.ofNat i)) (List.replicate 256 0x80)).set 61 0

/-- `dtable[c]` (256 entries, indexed by an `unsigned char`). -/
def dt (url : Bool) (c : UInt8) : UInt8 := (dtable url).getD c.toNat 0

/-- src/base64.c:239-243: how many of the characters are in the table. -/
def b64Count (url : Bool) : Bytes → Nat
  | [] => 0
  | c :: t => (if dt url c ≠ 0x80 then 1 else 0) + b64Count url t

/-- src/base64.c:265-305: the decoding loop over the characters (the implied `'='` at the end are part of the list).
`blk`: the values collected so far (`count` of them), `pad`: number of `'='` seen. Result `none`: invalid padding;
`some (bytes, back)`: all bytes written through `*pos++`, and by how much `pos` was moved back at the end. -/
def b64DecLoop (url : Bool) : Bytes → List Nat → Nat → Option (Bytes × Nat)
  | [], _, _ => some ([], 0)
  | c :: t, blk, pad =>
    let tmp := dt url c
    if tmp = 0x80 then b64DecLoop url t blk pad
    else
      let pad := if c = 61 then pad + 1 else pad
      match blk ++ [tmp.toNat] with
      | [b0, b1, b2, b3] =>
        let o : Bytes := [UInt8.ofNat ((b0 <<< 2) ||| (b1 >>> 4)), UInt8.ofNat ((b1 <<< 4) ||| (b2 >>> 2)),
          UInt8.ofNat ((b2 <<< 6) ||| b3)]
        if pad = 0 then
          match b64DecLoop url t [] 0 with
          | none => none
          | some (r, k) => some (o ++ r, k)
        else if pad = 1 then some (o, 1)
        else if pad = 2 then some (o, 2)
        else none
      | blk' => b64DecLoop url t blk' pad

/-- src/base64.c:206-310 `l8w8jwt_base64_decode`. The buffer has `count / 4 * 3 + 16` zero-initialised bytes; the bytes
written must fit. On success `out` holds the whole buffer. -/
def base64Decode (url : Bool) (data : Option Bytes) (n : Nat) (outNull lenNull : Bool) : M BufOut :=
  match data with
  | none => pure { rc := L8W8JWT_NULL_ARG }
  | some mem =>
    if outNull || lenNull then pure { rc := L8W8JWT_NULL_ARG }
    else if n = 0 then pure { rc := L8W8JWT_INVALID_ARG }
    else do
      let last ← M.lift (rd mem (n - 1))
      let inLen := if last = 0 then n - 1 else n
      let d ← M.lift (rdN mem inLen)
      let count := b64Count url d
      let r := count % 4
      if count = 0 || r = 1 || (!url && 0 < r) then pure { rc := L8W8JWT_INVALID_ARG }
      else do
        let r := if r = 3 then 1 else r
        let size := count / 4 * 3 + 16
        let p ← alloc []
        match p with
        | none => pure { rc := L8W8JWT_OUT_OF_MEM, out := some none }
        | some blk =>
          match b64DecLoop url (d ++ List.replicate r 61) [] 0 with
          | none => do
            free (some blk)
            pure { rc := L8W8JWT_INVALID_ARG, out := some none }
          | some (written, back) =>
            if size < written.length then M.lift (.error .oobWrite)
            else pure { rc := L8W8JWT_SUCCESS, out := some (some { blk with mem := padTo size written }),
                        len := some (written.length - back) }

end L8w8jwt
