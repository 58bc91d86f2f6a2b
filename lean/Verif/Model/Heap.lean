import Verif.Model.CLib
/-!
# Heap and allocation failures

`malloc`/`calloc`/`free` and the growth of a `chillbuff` under an arbitrary schedule of allocation failures.
Blocks have identities so that leaks, double frees and frees of foreign memory are observable; block contents travel
with the pointer (`Block.mem`), since no two live pointers of the modelled code alias the same block for writing.
-/

namespace L8w8jwt

/-- The schedule of allocation failures: which of the allocation events (numbered in order of execution) fail. -/
structure Sched where
  /-- `malloc`/`calloc` number `k` returns NULL. -/
  failAlloc : Nat → Bool
  /-- `some j`: the `chillbuff_push_back` with number `k` fails after appending `j` elements. -/
  failGrow : Nat → Option Nat

/-- The state of the allocator. -/
structure Heap where
  /-- Number of allocation events so far; also the identity of the next block. -/
  tick : Nat
  /-- Identities of the live blocks. -/
  live : List Nat
  deriving DecidableEq, Repr

/-- A heap block: identity and current content. -/
structure Block where
  id : Nat
  mem : Bytes
  deriving DecidableEq, Repr

/-- A pointer to a heap block or NULL. -/
abbrev Ptr := Option Block

/-- The memory behind a pointer. -/
def Ptr.bytes (p : Ptr) : Option Bytes := p.map Block.mem

/-- Computations that use the allocator and may be undefined. -/
def M (α : Type) : Type := Sched → Heap → Except UB (α × Heap)

namespace M

/-- Return. -/
protected def pure {α : Type} (a : α) : M α := fun _ h => .ok (a, h)

/-- Sequencing; undefined behaviour aborts. -/
protected def bind {α β : Type} (m : M α) (f : α → M β) : M β := fun s h =>
  match m s h with
  | .error e => .error e
  | .ok (a, h') => f a s h'

end M

instance : Monad M where
  pure := M.pure
  bind := M.bind

/-- Use a computation without side effects. -/
def M.lift {α : Type} (r : Res α) : M α := fun _ h =>
  match r with
  | .error e => .error e
  | .ok a => .ok (a, h)

/-- `malloc(size)`: NULL if the schedule says so, otherwise a fresh block.
Content: callers give the content the block has once initialised; reading uninitialised bytes does not occur in the
modelled code because every `malloc`ed block is completely written up to the part that is read. (The uninitialised
token array of src/decode.c:244-245 is modelled separately, see `Env.garbage`.) -/
def alloc (content : Bytes) : M Ptr := fun s h =>
  if s.failAlloc h.tick then .ok (none, { h with tick := h.tick + 1 })
  else .ok (some ⟨h.tick, content⟩, { tick := h.tick + 1, live := h.tick :: h.live })

/-- src/version.c:25-28 `l8w8jwt_free`, i.e. `free(p)`: no-op on NULL; undefined unless the block is live. -/
def free (p : Ptr) : M Unit := fun _ h =>
  match p with
  | none => .ok ((), h)
  | some b => if b.id ∈ h.live then .ok ((), { h with live := h.live.erase b.id }) else .error .invalidFree

/-- `chillbuff_push_back(buff, elements, n)` (lib/chillbuff, submodule not in /repo) on a buffer with initial capacity `cap`:
appends the elements one by one; if the array is full, it has to grow, and if that fails, the elements appended so far remain and
an error code is returned, which every caller in /repo ignores. The schedule says after how many elements growing fails; that has
no effect as long as the initial capacity is not used up. Simplifications: behind the initial capacity growing may be necessary at
every element (upstream: when the current capacity is used up), and the array keeps its block identity when reallocated (ownership
is unchanged). -/
def push {α : Type} (cap : Nat) (buf : List α) (xs : List α) : M (List α) := fun s h =>
  match s.failGrow h.tick with
  | none => .ok (buf ++ xs, { h with tick := h.tick + 1 })
  | some j => .ok (if cap ≤ buf.length + j then buf ++ xs.take j else buf ++ xs, { h with tick := h.tick + 1 })

end L8w8jwt
