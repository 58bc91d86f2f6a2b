import Verif.C.Syntax
/-!
# The meaning of the C subset

A statement transforms the state: the local variables of the current function, the allocator (the same one as in
Model/Heap.lean), and the contents of all objects. Every access is checked against the object it goes to.

Operands are evaluated from left to right. (No expression of /repo/src depends on the order.)
Loops run at most `fuel` iterations; running out of fuel is an outcome of its own and the theorems say how much
suffices.
-/

namespace L8w8jwt.C

/-- Why an execution stops. -/
inductive Err where
  /-- undefined behaviour -/
  | ub (u : UB)
  /-- use of an uninitialised value -/
  | uninit
  /-- shift, conversion or access the semantics gives no meaning to (undefined or implementation-defined in C) -/
  | stuck
  /-- a loop did not end within the given number of iterations -/
  | fuel
  deriving DecidableEq, Repr

/-- The state. `stk` is the number of the next local object. -/
structure St where
  fr : List Val
  heap : Heap
  mem : Blk → Option (List Val)
  stk : Nat

/-- Computations on the state. -/
def X (α : Type) : Type := Sched → St → Except Err (α × St)

namespace X
/-- Return. -/
protected def pure {α : Type} (a : α) : X α := fun _ st => .ok (a, st)
/-- Sequencing. -/
protected def bind {α β : Type} (m : X α) (f : α → X β) : X β := fun s st =>
  match m s st with
  | .error e => .error e
  | .ok (a, st') => f a s st'
/-- Stop. -/
def fail {α : Type} (e : Err) : X α := fun _ _ => .error e
/-- Use a result. -/
def lift {α : Type} (r : Except Err α) : X α := fun _ st =>
  match r with
  | .error e => .error e
  | .ok a => .ok (a, st)
/-- Use a result of the C library model. -/
def res {α : Type} (r : Res α) : X α := fun _ st =>
  match r with
  | .error e => .error (.ub e)
  | .ok a => .ok (a, st)
end X

instance : Monad X where
  pure := X.pure
  bind := X.bind

/-- Change the content of one object. -/
def upd (m : Blk → Option (List Val)) (b : Blk) (l : Option (List Val)) : Blk → Option (List Val) :=
  fun b' => if b' = b then l else m b'

/-- What the execution of a function depends on: is plain `char` signed, the bound for loops, the functions it calls,
the `static` tables, and what happens to be in an uninitialised local array of structures (there is one, src/decode.c:244, and it
is read before it is written; any other use of an uninitialised value is an error). -/
structure Ctx where
  cs : Bool
  fuel : Nat
  call : String → List Val → X Val
  glob : String → Option (List Val)
  /-- what is in an uninitialised local array of structures -/
  garb : Nat → Val

/-- `2^w` and signedness of an integer type. -/
def ITy.modulus : ITy → Int
  | .char | .i8 | .u8 => 256
  | .i32 | .u32 => 4294967296
  | .i64 | .u64 => 18446744073709551616

/-- Is the type signed? -/
def ITy.signed (cs : Bool) : ITy → Bool
  | .char => cs
  | .i8 | .i32 | .i64 => true
  | .u8 | .u32 | .u64 => false

/-- Conversion of an integer value to type `t` (two's complement for signed types). -/
def wrap (cs : Bool) (t : ITy) (v : Int) : Int :=
  if t.signed cs then
    if t.modulus / 2 ≤ v % t.modulus then v % t.modulus - t.modulus else v % t.modulus
  else v % t.modulus

/-- Result of arithmetic in type `t`: modulo for unsigned types, overflow is undefined for signed ones. -/
def ovf (cs : Bool) (t : ITy) (v : Int) : Except Err Int :=
  if t.signed cs then
    if -(t.modulus / 2) ≤ v ∧ v < t.modulus / 2 then .ok v else .error (.ub .signedOverflow)
  else .ok (v % t.modulus)

/-- Arithmetic in type `t`. Bit operations are only given a meaning on non-negative operands; shift counts must be less than
the width. -/
def arith (cs : Bool) (op : AOp) (t : ITy) (a b : Int) : Except Err Int :=
  match op with
  | .add => ovf cs t (a + b)
  | .sub => ovf cs t (a - b)
  | .mul => ovf cs t (a * b)
  | .div => if b = 0 then .error .stuck else ovf cs t (Int.tdiv a b)
  | .mod => if b = 0 then .error .stuck else ovf cs t (Int.tmod a b)
  | .band => if 0 ≤ a ∧ 0 ≤ b then .ok ((a.toNat &&& b.toNat : Nat) : Int) else .error .stuck
  | .bor => if 0 ≤ a ∧ 0 ≤ b then .ok ((a.toNat ||| b.toNat : Nat) : Int) else .error .stuck
  | .bxor => if 0 ≤ a ∧ 0 ≤ b then .ok ((a.toNat ^^^ b.toNat : Nat) : Int) else .error .stuck
  | .shl => if 0 ≤ a ∧ 0 ≤ b ∧ 2 ^ b.toNat < t.modulus then ovf cs t ((a.toNat <<< b.toNat : Nat) : Int) else .error .stuck
  | .shr => if 0 ≤ a ∧ 0 ≤ b ∧ 2 ^ b.toNat < t.modulus then .ok ((a.toNat >>> b.toNat : Nat) : Int) else .error .stuck

/-- Comparison of integers. -/
def COp.ints (op : COp) (a b : Int) : Bool :=
  match op with
  | .eq => decide (a = b)
  | .ne => decide (a ≠ b)
  | .lt => decide (a < b)
  | .le => decide (a ≤ b)
  | .gt => decide (b < a)
  | .ge => decide (b ≤ a)

/-- A truth value as an `int`. -/
def Val.ofBool (b : Bool) : Val := .int (if b then 1 else 0)

/-- Truth of a value. -/
def Val.truth : Val → Except Err Bool
  | .int v => .ok (decide (v ≠ 0))
  | .ptr p => .ok p.isSome
  | .undef => .error .uninit

/-- Comparison: integers; pointers for (in)equality, and for order if they point into the same object. -/
def compareV (op : COp) : Val → Val → Except Err Val
  | .int a, .int b => .ok (.ofBool (op.ints a b))
  | .ptr p, .ptr q =>
    match op with
    | .eq => .ok (.ofBool (decide (p = q)))
    | .ne => .ok (.ofBool (decide (p ≠ q)))
    | op =>
      match p, q with
      | some (b1, o1), some (b2, o2) => if b1 = b2 then .ok (.ofBool (op.ints o1 o2)) else .error .stuck
      | _, _ => .error .stuck
  | .undef, _ => .error .uninit
  | _, .undef => .error .uninit
  | _, _ => .error .stuck

/-- The object with identity `b`. -/
def obj (c : Ctx) (b : Blk) : X (List Val) := fun _ st =>
  match b with
  | .lit s => .ok (s.map (fun x => Val.int x.toNat) ++ [.int 0], st)
  | .glob g =>
    match c.glob g with
    | some l => .ok (l, st)
    | none => .error .stuck
  | b =>
    match st.mem b with
    | some l => .ok (l, st)
    | none => .error (.ub .oobRead)

/-- A cell value as a value of type `t`. Cells of bytes hold 0 .. 255. A zeroed cell read as a pointer is NULL. -/
def asTy (cs : Bool) : STy → Val → Except Err Val
  | _, .undef => .error .uninit
  | .int t, .int v => .ok (.int (wrap cs t v))
  | .ptr, .ptr p => .ok (.ptr p)
  | .ptr, .int v => if v = 0 then .ok (.ptr none) else .error .stuck
  | _, _ => .error .stuck

/-- The cell that represents a value of type `t`. -/
def toCell : STy → Val → Except Err Val
  | _, .undef => .error .uninit
  | .int .char, .int v => .ok (.int (v % 256))
  | .int .i8, .int v => .ok (.int (v % 256))
  | .int _, .int v => .ok (.int v)
  | .ptr, .ptr p => .ok (.ptr p)
  | _, _ => .error .stuck

/-- `*p` -/
def loadV (c : Ctx) (t : STy) (p : Val) : X Val :=
  match p with
  | .ptr (some (b, o)) => do
    let l ← obj c b
    if o < 0 then X.fail (.ub .oobRead)
    else match l[o.toNat]? with
      | some v => X.lift (asTy c.cs t v)
      | none => X.fail (.ub .oobRead)
  | .ptr none => X.fail (.ub .nullDeref)
  | .undef => X.fail .uninit
  | .int _ => X.fail .stuck

/-- Replace the content of a writable object. -/
def setObj (b : Blk) (l : List Val) : X Unit := fun _ st =>
  match b with
  | .lit _ => .error (.ub .oobWrite)
  | .glob _ => .error (.ub .oobWrite)
  | b => .ok ((), { st with mem := upd st.mem b (some l) })

/-- `*p = v` -/
def storeV (c : Ctx) (t : STy) (p v : Val) : X Unit :=
  match p with
  | .ptr (some (b, o)) => do
    let l ← obj c b
    let w ← X.lift (toCell t v)
    if 0 ≤ o ∧ o.toNat < l.length then setObj b (l.set o.toNat w) else X.fail (.ub .oobWrite)
  | .ptr none => X.fail (.ub .nullDeref)
  | .undef => X.fail .uninit
  | .int _ => X.fail .stuck

/-- `p + d` (in cells): the result must stay inside the object or directly behind it. -/
def paddV (c : Ctx) (p : Val) (d : Int) : X Val :=
  match p with
  | .ptr (some (b, o)) => do
    let l ← obj c b
    if 0 ≤ o + d ∧ o + d ≤ l.length then pure (.ptr (some (b, o + d))) else X.fail (.ub .oobRead)
  | .ptr none => X.fail (.ub .nullDeref)
  | .undef => X.fail .uninit
  | .int _ => X.fail .stuck

/-- `(p - q) / scale`, same object required. -/
def pdiffV (scale : Int) : Val → Val → Except Err Val
  | .ptr (some (b1, o1)), .ptr (some (b2, o2)) => if b1 = b2 then .ok (.int ((o1 - o2) / scale)) else .error .stuck
  | .undef, _ => .error .uninit
  | _, .undef => .error .uninit
  | _, _ => .error .stuck

/-- An initialised integer. -/
def Val.getInt : Val → Except Err Int
  | .int v => .ok v
  | .undef => .error .uninit
  | .ptr _ => .error .stuck

/-- Value of a local variable (may be uninitialised: only its use in an operation is an error). -/
def getLoc (i : Nat) : X Val := fun _ st => .ok (st.fr.getD i .undef, st)

/-- Assign a local variable. -/
def setLoc (i : Nat) (v : Val) : X Unit := fun _ st => .ok ((), { st with fr := st.fr.set i v })

/-- The `n` cells at `p`. -/
def readCells (c : Ctx) (p : Val) (n : Nat) : X (List Val) :=
  match p with
  | .ptr (some (b, o)) => do
    let l ← obj c b
    if 0 ≤ o ∧ o.toNat + n ≤ l.length then pure ((l.drop o.toNat).take n) else X.fail (.ub .oobRead)
  | .ptr none => X.fail (.ub .nullDeref)
  | .undef => X.fail .uninit
  | .int _ => X.fail .stuck

/-- Overwrite cells from `p` on. -/
def writeCells (c : Ctx) (p : Val) (vs : List Val) : X Unit :=
  match p with
  | .ptr (some (b, o)) => do
    let l ← obj c b
    if 0 ≤ o ∧ o.toNat + vs.length ≤ l.length then
      setObj b (l.take o.toNat ++ vs ++ l.drop (o.toNat + vs.length))
    else X.fail (.ub .oobWrite)
  | .ptr none => X.fail (.ub .nullDeref)
  | .undef => X.fail .uninit
  | .int _ => X.fail .stuck

mutual
/-- Evaluation of an expression. -/
def eval (c : Ctx) : Expr → X Val
  | .num v => pure (.int v)
  | .null => pure (.ptr none)
  | .str s => pure (.ptr (some (.lit s, 0)))
  | .glob g => pure (.ptr (some (.glob g, 0)))
  | .loc i => getLoc i
  | .cast t e => do
    let v ← eval c e
    let n ← X.lift v.getInt
    pure (.int (wrap c.cs t n))
  | .ar op t a b => do
    let x ← eval c a
    let y ← eval c b
    let m ← X.lift x.getInt
    let n ← X.lift y.getInt
    let r ← X.lift (arith c.cs op t m n)
    pure (.int r)
  | .cmp op a b => do
    let x ← eval c a
    let y ← eval c b
    X.lift (compareV op x y)
  | .not a => do
    let x ← eval c a
    let b ← X.lift x.truth
    pure (.ofBool !b)
  | .land a b => do
    let x ← eval c a
    let p ← X.lift x.truth
    if p then do
      let y ← eval c b
      let q ← X.lift y.truth
      pure (.ofBool q)
    else pure (.ofBool false)
  | .lor a b => do
    let x ← eval c a
    let p ← X.lift x.truth
    if p then pure (.ofBool true)
    else do
      let y ← eval c b
      let q ← X.lift y.truth
      pure (.ofBool q)
  | .cond e a b => do
    let x ← eval c e
    let p ← X.lift x.truth
    if p then eval c a else eval c b
  | .comma a b => do
    let _ ← eval c a
    eval c b
  | .padd scale p i => do
    let x ← eval c p
    let y ← eval c i
    let n ← X.lift y.getInt
    paddV c x (scale * n)
  | .pdiff scale a b => do
    let x ← eval c a
    let y ← eval c b
    X.lift (pdiffV scale x y)
  | .load t p => do
    let x ← eval c p
    loadV c t x
  | .store t p e => do
    let x ← eval c p
    let v ← eval c e
    let _ ← storeV c t x v
    pure v
  | .set i e => do
    let v ← eval c e
    let _ ← setLoc i v
    pure v
  | .post i e => do
    let v ← getLoc i
    let w ← eval c e
    let _ ← setLoc i w
    pure v
  | .copy n p q => do
    let x ← eval c p
    let y ← eval c q
    let cells ← readCells c y n
    let _ ← writeCells c x cells
    pure .undef
  | .call f args => do
    let vs ← evalArgs c args
    c.call f vs
/-- Evaluation of arguments. -/
def evalArgs (c : Ctx) : Args → X (List Val)
  | .nil => pure []
  | .cons e r => do
    let v ← eval c e
    let vs ← evalArgs c r
    pure (v :: vs)
end

/-- How a statement is entered: `run`: from its beginning; otherwise only from the given label or `case` inside it. -/
inductive Mode where
  | run
  | label (l : String)
  | case (v : Int)
  | dflt
  deriving DecidableEq, Repr

/-- How a statement is left. `next run`: at its end. `next m` otherwise: the label or `case` that is looked for comes later. -/
inductive Ctl where
  | next (m : Mode)
  | brk
  | cont
  | ret (v : Val)
  deriving DecidableEq, Repr

/-- Loops: `n` bounds the number of times the condition is evaluated. -/
def iter (cond : X Bool) (body : X Ctl) (step : X Unit) : Nat → X Ctl
  | 0 => X.fail .fuel
  | n + 1 => do
    let b ← cond
    if b then do
      let r ← body
      match r with
      | .next .run => do
        let _ ← step
        iter cond body step n
      | .cont => do
        let _ ← step
        iter cond body step n
      | .brk => pure (.next .run)
      | .next m => pure (.next m)
      | .ret v => pure (.ret v)
    else pure (.next .run)

/-- Allocation of a local object. -/
def allocLocal (i : Nat) (cells : List Val) : X Unit := fun _ st =>
  .ok ((), { st with mem := upd st.mem (.stack st.stk) (some cells), stk := st.stk + 1,
                     fr := st.fr.set i (.ptr (some (.stack st.stk, 0))) })

/-- Execution of a statement. -/
def exec (c : Ctx) : Stmt → Mode → X Ctl
  | .seq a b, m => do
    let r ← exec c a m
    match r with
    | .next m' => exec c b m'
    | r => pure r
  | .label l, m => pure (.next (if m = .label l then .run else m))
  | .case v, m => pure (.next (if m = .case v then .run else m))
  | .default, m => pure (.next (if m = .dflt then .run else m))
  | .skip, m => pure (.next m)
  | .exp e, .run => do
    let _ ← eval c e
    pure (.next .run)
  | .ite e a b, .run => do
    let v ← eval c e
    let p ← X.lift v.truth
    if p then exec c a .run else exec c b .run
  | .loop e body step, .run =>
    iter (do let v ← eval c e; X.lift v.truth) (exec c body .run) (do let _ ← eval c step; pure ()) c.fuel
  | .switch e body, .run => do
    let v ← eval c e
    let n ← X.lift v.getInt
    let r ← exec c body (.case n)
    let r ← match r with
      | .next (.case _) => exec c body .dflt
      | r => pure r
    match r with
    | .next .dflt => pure (.next .run)
    | .brk => pure (.next .run)
    | r => pure r
  | .goto l, .run => pure (.next (.label l))
  | .brk, .run => pure .brk
  | .cont, .run => pure .cont
  | .ret e, .run => do
    let v ← eval c e
    pure (.ret v)
  | .retVoid, .run => pure (.ret .undef)
  | .decl i, .run => do
    let _ ← setLoc i .undef
    pure (.next .run)
  | .declMem i n init fill, .run => do
    let _ ← allocLocal i (init ++ List.replicate (n - init.length) fill)
    pure (.next .run)
  | .declArr i n, .run => do
    let _ ← allocLocal i ((List.range n).map c.garb)
    pure (.next .run)
  | _, m => pure (.next m)

/-- The objects that remain when the local objects from number `k` on are gone. -/
def dropStack (k : Nat) (m : Blk → Option (List Val)) : Blk → Option (List Val)
  | .stack j => if k ≤ j then none else m (.stack j)
  | b => m b

/-- A call: fresh local variables, local objects disappear at the end. -/
def runFun (c : Ctx) (f : CFun) (args : List Val) : X Val := fun s st =>
  match exec c f.body .run s { st with fr := args ++ List.replicate (f.slots - f.params) .undef } with
  | .error e => .error e
  | .ok (r, st') =>
    match r with
    | .ret v => .ok (v, { st' with fr := st.fr, mem := dropStack st.stk st'.mem, stk := st.stk })
    | .next .run => .ok (.undef, { st' with fr := st.fr, mem := dropStack st.stk st'.mem, stk := st.stk })
    | _ => .error .stuck

end L8w8jwt.C
