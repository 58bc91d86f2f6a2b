import Verif.C.Sem
import Verif.Model.Decode
/-!
# The library functions the C text calls

Meaning of the calls of C library functions (in terms of Model/CLib.lean) and of the allocator (Model/Heap.lean).
-/

namespace L8w8jwt.C

/-- `malloc(n)`/`calloc`: a fresh object with the given cells, or NULL if the schedule says so. -/
def xAlloc (cells : List Val) : X Val := fun s st =>
  if s.failAlloc st.heap.tick then .ok (.ptr none, { st with heap := { st.heap with tick := st.heap.tick + 1 } })
  else .ok (.ptr (some (.heap st.heap.tick, 0)),
    { st with heap := { tick := st.heap.tick + 1, live := st.heap.tick :: st.heap.live },
              mem := upd st.mem (.heap st.heap.tick) (some cells) })

/-- `free(p)`: only the address of a live block, or NULL. -/
def xFree (p : Val) : X Val := fun _ st =>
  match p with
  | .ptr none => .ok (.undef, st)
  | .ptr (some (.heap id, o)) =>
    if id ∈ st.heap.live ∧ o = 0 then
      .ok (.undef, { st with heap := { st.heap with live := st.heap.live.erase id }, mem := upd st.mem (.heap id) none })
    else .error (.ub .invalidFree)
  | .ptr (some _) => .error (.ub .invalidFree)
  | .undef => .error .uninit
  | .int _ => .error .stuck

/-- The bytes of a list of cells up to the first cell that is not an initialised byte. -/
def toBytes : List Val → Bytes
  | .int v :: r => if 0 ≤ v ∧ v < 256 then UInt8.ofNat v.toNat :: toBytes r else []
  | _ => []

/-- The memory from a pointer to the end of its object, as far as it consists of initialised bytes. -/
def bytesAt (c : Ctx) (p : Val) : X Bytes :=
  match p with
  | .ptr (some (b, o)) => do
    let l ← obj c b
    if o < 0 then X.fail (.ub .oobRead) else pure (toBytes (l.drop o.toNat))
  | .ptr none => X.fail (.ub .nullDeref)
  | .undef => X.fail .uninit
  | .int _ => X.fail .stuck

/-- Bytes as cells. -/
def cells (b : Bytes) : List Val := b.map fun x => .int x.toNat

/-! ## chillbuff

lib/chillbuff is a submodule that is not in /repo; these are the documented functions, with the same schedule of failures as `push` in
Model/Heap.lean. `struct chillbuff` has five members: array, length, capacity, element size, growth method. Simplification: the member
`capacity`, which /repo/src never reads, keeps the initial capacity. -/

/-- `chillbuff_init(b, capacity, element_size, growth)`: a new array, uninitialised. -/
def xBufInit (c : Ctx) (p : Val) (cap es g : Int) : X Val := do
  let a ← xAlloc (List.replicate (cap.toNat * es.toNat) .undef)
  match a with
  | .ptr (some _) => do
    let _ ← writeCells c p [a, .int 0, .int cap, .int es, .int g]
    pure (.int 0)
  | _ => do
    let _ ← writeCells c p [.ptr none, .int 0, .int 0, .int 0, .int 0]
    pure (.int 1)

/-- How many of `n` elements are appended to a buffer of `len` elements and initial capacity `cap`. -/
def growBy (cap len n : Nat) : X Nat := fun s st =>
  .ok (match s.failGrow st.heap.tick with
    | none => n
    | some j => if cap ≤ len + j then min j n else n, { st with heap := { st.heap with tick := st.heap.tick + 1 } })

/-- `chillbuff_push_back(b, elements, n)`: appends copies of the elements, as far as memory suffices. Nothing is read if `n` is 0. -/
def xBufPush (c : Ctx) (p q : Val) (n : Int) : X Val := do
  let b ← readCells c p 5
  match b with
  | [.ptr (some (.heap id, 0)), .int len, .int cap, .int es, g] => do
    let src ← (if n = 0 then pure [] else readCells c q (n.toNat * es.toNat) : X (List Val))
    let l ← obj c (.heap id)
    let k ← growBy cap.toNat len.toNat n.toNat
    let new := l.take (len.toNat * es.toNat) ++ src.take (k * es.toNat)
    let _ ← setObj (.heap id) (new ++ l.drop new.length)
    let _ ← writeCells c p [.ptr (some (.heap id, 0)), .int (len + k), .int cap, .int es, g]
    pure (.int (if (k : Int) = n then 0 else 1))
  | _ => X.fail .stuck

/-- `chillbuff_clear(b)`: the elements are overwritten with zeros, the length becomes 0. -/
def xBufClear (c : Ctx) (p : Val) : X Val := do
  let b ← readCells c p 5
  match b with
  | [.ptr (some (.heap id, 0)), .int len, .int cap, .int es, g] => do
    let l ← obj c (.heap id)
    let _ ← setObj (.heap id) (List.replicate (min (len.toNat * es.toNat) l.length) (.int 0) ++ l.drop (len.toNat * es.toNat))
    let _ ← writeCells c p [.ptr (some (.heap id, 0)), .int 0, .int cap, .int es, g]
    pure .undef
  | _ => X.fail .stuck

/-- `chillbuff_free(b)`: the array is freed. -/
def xBufFree (c : Ctx) (p : Val) : X Val := do
  let b ← readCells c p 5
  let _ ← xFree (b.headD .undef)
  let _ ← writeCells c p [.ptr none, .int 0, .int 0, .int 0, .int 0]
  pure .undef

/-! ## jsmn

As Model/Jsmn.lean. The parser structure may only be used once after each `jsmn_init`. -/

/-- `jsmntype_t` as a number; any number that is not an enumerator for `other`. -/
def tokCode : JType → Int
  | .undefined => 0
  | .object => 1
  | .array => 2
  | .string => 4
  | .primitive => 8
  | .other => 3

/-- The members of a token: type, start, end, size (not modelled). -/
def tokCells (t : Tok) : List Val := [.int (tokCode t.type), .int t.start, .int t.end_, .undef]

/-- `enum jsmnerr` -/
def errCode : JErr → Int
  | .nomem => -1
  | .inval => -2
  | .part => -3

/-- `jsmn_init` -/
def xJsmnInit (c : Ctx) (p : Val) : X Val := do
  let _ ← writeCells c p [.int 0, .int 0, .int (-1)]
  pure .undef

/-- `jsmn_parse`: counts the tokens if `toks` is NULL. The array is unspecified after an error. -/
def xJsmnParse (c : Ctx) (p js : Val) (n : Int) (toks : Val) (k : Int) : X Val := do
  let l ← readCells c p 3
  if l = [.int 0, .int 0, .int (-1)] then do
    let b ← bytesAt c js
    let t ← X.res (rdN b n.toNat)
    let _ ← writeCells c p [.undef, .undef, .undef]
    match toks with
    | .ptr none =>
      match jsmnCount t with
      | .error e => pure (.int (errCode e))
      | .ok r => pure (.int r)
    | toks =>
      match jsmnParse t k.toNat with
      | .error e => do
        let _ ← writeCells c toks (List.replicate (4 * k.toNat) .undef)
        pure (.int (errCode e))
      | .ok (r, ts) => do
        let _ ← writeCells c toks (ts.flatMap tokCells)
        pure (.int r)
  else X.fail .stuck

/-- The bytes at a pointer that may be NULL (also one zeroed by `memset`). -/
def strAt (c : Ctx) (p : Val) : X (Option Bytes) :=
  match p with
  | .ptr none => pure none
  | .int 0 => pure none
  | p => do
    let b ← bytesAt c p
    pure (some b)

/-- The library functions: C library, chillbuff, mbedtls_platform_zeroize; otherwise `els`. -/
def libc (els : String → List Val → X Val) (c : Ctx) (f : String) (args : List Val) : X Val :=
  match f, args with
  | "malloc", [.int n] => xAlloc (List.replicate n.toNat .undef)
  | "calloc", [.int n, .int m] => xAlloc (List.replicate (n.toNat * m.toNat) (.int 0))
  | "free", [p] => xFree p
  | "memset", [p, .int v, .int n] => do
    let _ ← writeCells c p (List.replicate n.toNat (.int (v % 256)))
    pure p
  | "memcpy", [p, q, .int n] => do
    let l ← readCells c q n.toNat
    let _ ← writeCells c p l
    pure p
  | "strlen", [p] => do
    let b ← bytesAt c p
    let n ← X.res (strlen b)
    pure (.int n)
  | "strchr", [p, .int ch] => do
    let b ← bytesAt c p
    let r ← X.res (strchr b (UInt8.ofNat ch.toNat))
    match r, p with
    | some k, .ptr (some (blk, o)) => pure (.ptr (some (blk, o + k)))
    | _, _ => pure (.ptr none)
  | "strncmp", [p, q, .int n] =>
    if n = 0 then pure (.int 0)
    else do
      let a ← bytesAt c p
      let b ← bytesAt c q
      let r ← X.res (strncmp a b n.toNat)
      pure (.int r)
  | "strncpy", [p, q, .int n] => do
    let b ← bytesAt c q
    let w ← X.res (strncpy b n.toNat)
    let _ ← writeCells c p (cells w)
    pure p
  | "strtoll", [p, .ptr none, .int 10] => do
    let b ← bytesAt c p
    let r ← X.res (strtoll b)
    pure (.int r)
  | "tolower", [.int v] => do
    let r ← X.res (tolower v)
    pure (.int r)
  | "mbedtls_platform_zeroize", [p, .int n] =>
    if n = 0 then pure .undef
    else do
      let _ ← writeCells c p (List.replicate n.toNat (.int 0))
      pure .undef
  | "chillbuff_init", [p, .int cap, .int es, .int g] => xBufInit c p cap es g
  | "chillbuff_push_back", [p, q, .int n] => xBufPush c p q n
  | "chillbuff_clear", [p] => xBufClear c p
  | "chillbuff_free", [p] => xBufFree c p
  | _, _ => els f args

end L8w8jwt.C
