import Verif.C.Link
import Verif.C.ExUnit
/-!
# Running the programs of /repo/examples

A program is run from the start: no local objects, no blocks, nothing printed. What it prints is the content of the object `.ext 0`.
-/

namespace L8w8jwt.C

/-- A number as `%d` prints it. -/
def printInt (v : Int) : Bytes := if v < 0 then 45 :: decimal v.natAbs else decimal v.natAbs

/-- A digit as `%x` prints it. -/
def printHex (n : Nat) : UInt8 := if n < 10 then UInt8.ofNat (48 + n) else UInt8.ofNat (87 + n)

/-- What `printf` prints for a format and arguments (C11 7.21.6.1): the conversions `%s`, `%d` and, for one byte, `%02x`. `m` says how
many characters of a conversion have been read. -/
def formatted (c : Ctx) : Nat → Bytes → List Val → X Bytes
  | 0, [], _ => pure []
  | _, [], _ => X.fail .stuck
  | 0, x :: f, vs =>
    if x = 37 then formatted c 1 f vs
    else do
      let t ← formatted c 0 f vs
      pure (x :: t)
  | 1, x :: f, vs =>
    if x = 115 then
      match vs with
      | v :: vs => do
        let b ← bytesAt c v
        let n ← X.res (strlen b)
        let t ← formatted c 0 f vs
        pure (b.take n ++ t)
      | [] => X.fail .stuck
    else if x = 100 then
      match vs with
      | v :: vs => do
        let k ← X.lift v.getInt
        let t ← formatted c 0 f vs
        pure (printInt (wrap c.cs .i32 k) ++ t)
      | [] => X.fail .stuck
    else if x = 48 then formatted c 2 f vs
    else X.fail .stuck
  | 2, x :: f, vs => if x = 50 then formatted c 3 f vs else X.fail .stuck
  | _, x :: f, vs =>
    if x = 120 then
      match vs with
      | v :: vs => do
        let k ← X.lift v.getInt
        let t ← formatted c 0 f vs
        pure (printHex (k.toNat / 16) :: printHex (k.toNat % 16) :: t)
      | [] => X.fail .stuck
    else X.fail .stuck

/-- `printf`: the text goes to the object `.ext 0`. (The number of characters it returns is never used.) -/
def xPrintf (c : Ctx) (args : List Val) : X Val :=
  match args with
  | p :: vs => do
    let b ← bytesAt c p
    let n ← X.res (strlen b)
    let t ← formatted c 0 (b.take n) vs
    let old ← obj c (.ext 0)
    let _ ← setObj (.ext 0) (old ++ cells t)
    pure .undef
  | [] => X.fail .stuck

/-- The context of `main`: like that of the functions of /repo/src, and `printf`. -/
def mx (env : Env) (fuel n : Nat) : Ctx :=
  { cx env fuel n with call := fun f args => if f = "printf" then xPrintf (lctx env) args else (cx env fuel n).call f args }

/-- The memory with the local objects `objs`, when `out` has been printed and there are no blocks. -/
def layMem (objs : List (List Val)) (out : Bytes) : Blk → Option (List Val)
  | .stack i => objs[i]?
  | .ext i => if i = 0 then some (cells out) else none
  | _ => none

/-- The start of a program. -/
def begin : St := ⟨[], ⟨0, []⟩, layMem [] [], 0⟩

/-- What a state has printed. -/
def St.printed (st : St) : Option Bytes := (st.mem (.ext 0)).map toBytes

/-- A run of a program. -/
def runMain (env : Env) (fuel : Nat) (f : CFun) (s : Sched) : Except Err (Val × St) := runFun (mx env fuel 4) f [] s begin

end L8w8jwt.C
