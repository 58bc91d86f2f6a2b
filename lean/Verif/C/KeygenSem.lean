import Verif.C.ExRun
/-!
# Running examples/eddsa/keygen.c

The program uses the random number generator, SHA-512 and the key generation of the library ed25519, which is not in /repo. They are
arbitrary functions here. `argv` is the object `.ext 1`; its elements point to string literals.
-/

namespace L8w8jwt.C

/-- What the library ed25519 answers. -/
structure KeyLib where
  /-- what `ed25519_create_seed` writes; `none`: it cannot read random numbers, and leaves the array as it is -/
  random : Option Bytes
  sha512 : Bytes → Bytes
  publicKey : Bytes → Bytes
  privateKey : Bytes → Bytes

/-- Functions called by the program. The object of a `sha512_context` is taken to hold the bytes hashed so far. -/
def keyCalls (env : Env) (k : KeyLib) (f : String) (args : List Val) : X Val :=
  match f, args with
  | "printf", _ => xPrintf (lctx env) args
  | "ed25519_create_seed", [p] =>
    match k.random with
    | some r => do
      let _ ← writeCells (lctx env) p (cells r)
      pure (.int 0)
    | none => pure (.int 1)
  | "sha512_init", [.ptr (some (b, 0))] => do
    let _ ← obj (lctx env) b
    let _ ← setObj b []
    pure (.int 0)
  | "sha512_update", [.ptr (some (b, 0)), p, .int n] => do
    let old ← obj (lctx env) b
    let new ← readBytes (lctx env) p n
    let _ ← setObj b (old ++ cells new)
    pure (.int 0)
  | "sha512_final", [.ptr (some (b, 0)), p] => do
    let old ← obj (lctx env) b
    let _ ← writeCells (lctx env) p (cells (k.sha512 (toBytes old)))
    pure (.int 0)
  | "ed25519_create_keypair_ref10", [p, q, r] => do
    let l ← readBytes (lctx env) r 32
    let _ ← writeCells (lctx env) p (cells (k.publicKey l))
    let _ ← writeCells (lctx env) q (cells (k.privateKey l))
    pure .undef
  | _, _ => lib env f args

/-- The context. -/
def kx (env : Env) (k : KeyLib) (fuel : Nat) : Ctx := { cx env fuel 0 with call := keyCalls env k }

/-- The pointers in `argv`. -/
def argv (args : List Bytes) : List Val := args.map (fun a => .ptr (some (.lit a, 0))) ++ [.ptr none]

/-- The memory with the local objects `objs`, when `out` has been printed. -/
def keyMem (args : List Bytes) (objs : List (List Val)) (out : Bytes) : Blk → Option (List Val)
  | .stack i => objs[i]?
  | .ext i => if i = 0 then some (cells out) else if i = 1 then some (argv args) else none
  | _ => none

/-- The state with the local variables `fr`. -/
def keySt (args : List Bytes) (fr : List Val) (objs : List (List Val)) (out : Bytes) : St := ⟨fr, ⟨0, []⟩, keyMem args objs out, objs.length⟩

/-- The program, started with the arguments `args`, the first of which is its name. -/
def runKeygen (env : Env) (k : KeyLib) (fuel : Nat) (args : List Bytes) (s : Sched) : Except Err (Val × St) :=
  runFun (kx env k fuel) Ex.Keygen.main [.int args.length, .ptr (some (.ext 1, 0))] s (keySt args [] [] [])

end L8w8jwt.C
