import Verif.Model.Heap
import Verif.Model.RetCodes
/-!
# src/claim.c
-/

namespace L8w8jwt

/-- claim.h:82-113 `struct l8w8jwt_claim`. The identities in the pointers only matter for claims allocated by the
decoder. -/
structure Claim where
  key : Ptr
  keyLength : Nat
  value : Ptr
  valueLength : Nat
  type : Int
  deriving DecidableEq, Repr

/-- src/claim.c:61-93 `escape_table`: entries 0..31 (the strings in lines 62-65). -/
def escapeLow : List String :=
  ["\\u0000", "\\u0001", "\\u0002", "\\u0003", "\\u0004", "\\u0005", "\\u0006", "\\u0007",
   "\\b", "\\t", "\\n", "\\u000b", "\\f", "\\r", "\\u000e", "\\u000f",
   "\\u0010", "\\u0011", "\\u0012", "\\u0013", "\\u0014", "\\u0015", "\\u0016", "\\u0017",
   "\\u0018", "\\u0019", "\\u001a", "\\u001b", "\\u001c", "\\u001d", "\\u001e", "\\u001f"]

/-- src/claim.c:61-93 `escape_table[i]` for `0 ≤ i < 256`; `none` is NULL. Entries 34 (line 66), 47 (line 67),
92 (line 73) and 127 (line 77) are the only non-NULL ones from 32 on. -/
def escapeTable (i : Nat) : Option Bytes :=
  if i < 32 then some (str (escapeLow.getD i ""))
  else if i = 34 then some (str "\\\"")
  else if i = 47 then some (str "\\/")
  else if i = 92 then some (str "\\\\")
  else if i = 127 then some (str "\\u007f")
  else none

/-- src/claim.c:98-108: the characters pushed for `c`. The index is a plain `char`: negative if `char` is signed and
`c ≥ 0x80`, which is outside the table. -/
def escapeChar (charSigned : Bool) (c : UInt8) : Res Bytes :=
  if charVal charSigned c < 0 then .error .badIndex
  else match escapeTable c.toNat with
    | some e => .ok e
    | none => .ok [c]

/-- src/claim.c:96-109: the loop over the characters, appending to the escape buffer (initial capacity: line 125). -/
def escapeLoop (charSigned : Bool) (buf : Bytes) : Bytes → M Bytes
  | [] => pure buf
  | c :: t => do
    let e ← M.lift (escapeChar charSigned c)
    let buf ← push 256 buf e
    escapeLoop charSigned buf t

/-- src/claim.c:59-110 `l8w8jwt_escape_claim_string` into the empty (cleared) escape buffer. -/
def escapeClaimString (charSigned : Bool) (string : Ptr) (n : Nat) : M Bytes := do
  let mem ← M.lift (deref string.bytes)
  let s ← M.lift (rdN mem n)
  escapeLoop charSigned [] s

/-- src/claim.c:143-144: explicit length, or `strlen` if it is 0. -/
def lenOrStrlen (p : Ptr) (n : Nat) : Res Nat :=
  if n ≠ 0 then .ok n else do
    let mem ← deref p.bytes
    strlen mem

/-- src/claim.c:133-169: one iteration of the loop (claims with NULL key are skipped). State: builder and `first`. -/
def writeClaim (cap : Nat) (charSigned : Bool) (buf : Bytes) (first : Bool) (c : Claim) : M (Bytes × Bool) :=
  match c.key with
  | none => pure (buf, first)
  | some k => do
    let buf ← (if first then pure buf else push cap buf (str ",") : M Bytes)
    let keyLength ← M.lift (lenOrStrlen (some k) c.keyLength)
    let valueLength ← M.lift (lenOrStrlen c.value c.valueLength)
    let e ← escapeClaimString charSigned (some k) keyLength
    let buf ← push cap buf (str "\"")
    let buf ← push cap buf e
    let buf ← push cap buf (str "\":")
    if c.type = L8W8JWT_CLAIM_TYPE_STRING then do
      let buf ← push cap buf (str "\"")
      let e ← escapeClaimString charSigned c.value valueLength
      let buf ← push cap buf e
      let buf ← push cap buf (str "\"")
      pure (buf, false)
    else do
      -- line 166; simplification: chillbuff refuses a NULL source with a non-zero length, here it is undefined
      let mem ← M.lift (deref c.value.bytes)
      let v ← M.lift (rdN mem valueLength)
      let buf ← push cap buf v
      pure (buf, false)

/-- src/claim.c:130-170: the loop. -/
def writeClaimsLoop (cap : Nat) (charSigned : Bool) (buf : Bytes) (first : Bool) : List Claim → M Bytes
  | [] => pure buf
  | c :: t => do
    let (buf, first) ← writeClaim cap charSigned buf first c
    writeClaimsLoop cap charSigned buf first t

/-- src/claim.c:112-174 `l8w8jwt_write_claims`: return code and new content of the builder (`builder = none`: NULL), of which `cap`
is the initial capacity. -/
def writeClaims (cap : Nat) (charSigned : Bool) (builder : Option Bytes) (claims : Option (List Claim)) (count : Nat) :
    M (Nat × Option Bytes) :=
  match builder, claims with
  | some buf, some cs =>
    if count = 0 then pure (L8W8JWT_INVALID_ARG, builder)
    else do
      let esc ← alloc []
      match esc with
      | none => pure (L8W8JWT_OUT_OF_MEM, builder)
      | some _ => do
        let cs ← M.lift (rdN cs count)
        let buf ← writeClaimsLoop cap charSigned buf true cs
        free esc
        pure (L8W8JWT_SUCCESS, some buf)
  | _, _ => pure (L8W8JWT_NULL_ARG, builder)

/-- src/claim.c:181-185: the search loop over `count` array elements; result: index of the claim. -/
def getClaimLoop (key : Bytes) (keyLength : Nat) : List Claim → Nat → Res (Option Nat)
  | _, 0 => .ok none
  | [], _ + 1 => .error .oobRead
  | c :: t, n + 1 => do
    let mem ← deref c.key.bytes
    let r ← strncmp mem key keyLength
    if r = 0 then .ok (some 0)
    else do
      let o ← getClaimLoop key keyLength t n
      .ok (o.map (· + 1))

/-- src/claim.c:176-188 `l8w8jwt_get_claim`: index of the claim found, `none` for NULL. -/
def getClaim (claims : Option (List Claim)) (count : Nat) (key : Option Bytes) (keyLength : Nat) : Res (Option Nat) :=
  match claims, key with
  | some cs, some k => if count = 0 ∨ keyLength = 0 then .ok none else getClaimLoop k keyLength cs count
  | _, _ => .ok none

/-- A heap-allocated array of claims: the block and its elements. -/
structure ClaimArr where
  blk : Ptr
  items : List Claim
  deriving DecidableEq, Repr

/-- `mbedtls_platform_zeroize(p, n)` (mbedTLS): nothing for `n = 0`, otherwise writes `n` bytes. -/
def zeroize (p : Ptr) (n : Nat) : Res Unit :=
  if n = 0 then .ok () else
    match p with
    | none => .error .nullDeref
    | some b => if n ≤ b.mem.length then .ok () else .error .oobWrite

/-- src/claim.c:37-49: the loop of `l8w8jwt_free_claims`. -/
def freeClaimsLoop : List Claim → M Unit
  | [] => pure ()
  | c :: t => do
    M.lift (zeroize c.key c.keyLength)
    M.lift (zeroize c.value c.valueLength)
    free c.key
    free c.value
    freeClaimsLoop t

/-- src/claim.c:30-57 `l8w8jwt_free_claims`. -/
def freeClaims (a : ClaimArr) (count : Nat) : M Unit :=
  match a.blk with
  | none => pure ()
  | some _ => do
    let cs ← M.lift (rdN a.items count)
    freeClaimsLoop cs
    free a.blk

end L8w8jwt
