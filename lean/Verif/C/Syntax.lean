import Verif.Model.Heap
/-!
# The subset of C used by /repo/src: syntax after type checking

The functions of /repo are also modelled at the level of their C text. `Verif/C/Parse.lean` reads the text of a C
function and produces a term of the types below; `Verif/C/Sem.lean` gives these terms a meaning, one statement and one
memory access at a time.

As usual for such a semantics (cf. Clight), the syntax is the one after type checking: variables are numbered, implicit
conversions that can change a value are explicit, pointer arithmetic is scaled, structure members are offsets.
Sizes and offsets are counted in scalar members: a `char` and a pointer take one cell each. (`sizeof` is only
used on `char`/`uint8_t`, on whole structures and on arrays in /repo/src, always to describe whole objects.)
-/

namespace L8w8jwt.C

/-- Integer types (`int` is 32 bits, `size_t`, `long long` and `time_t` are 64 bits wide). `char` is plain `char`. -/
inductive ITy where
  | char | i8 | u8 | i32 | u32 | i64 | u64
  deriving DecidableEq, Repr, Inhabited

/-- Scalar types, as far as loads and stores distinguish them. -/
inductive STy where
  | int (t : ITy)
  | ptr
  deriving DecidableEq, Repr, Inhabited

/-- Identity of an object. -/
inductive Blk where
  /-- allocated by `malloc`/`calloc`; the number is the one of Model/Heap.lean -/
  | heap (id : Nat)
  /-- local array, structure or variable whose address is taken -/
  | stack (k : Nat)
  /-- string literal -/
  | lit (s : List UInt8)
  /-- `static` table -/
  | glob (name : String)
  /-- object that belongs to the caller -/
  | ext (k : Nat)
  deriving DecidableEq, Repr, Inhabited

/-- The value of a cell or an expression. A non-NULL pointer is an object and an offset into it. -/
inductive Val where
  | int (v : Int)
  | ptr (p : Option (Blk × Int))
  /-- uninitialised -/
  | undef
  deriving DecidableEq, Repr, Inhabited

/-- Arithmetic operators. -/
inductive AOp where
  | add | sub | mul | div | mod | band | bor | bxor | shl | shr
  deriving DecidableEq, Repr, Inhabited

/-- Comparison operators. -/
inductive COp where
  | eq | ne | lt | le | gt | ge
  deriving DecidableEq, Repr, Inhabited

mutual
/-- Expressions. -/
inductive Expr where
  /-- integer constant -/
  | num (v : Int)
  /-- null pointer constant -/
  | null
  /-- string literal -/
  | str (s : List UInt8)
  /-- address of a `static` table -/
  | glob (name : String)
  /-- local variable; for a local that lives in memory: its address -/
  | loc (i : Nat)
  /-- conversion to an integer type -/
  | cast (t : ITy) (e : Expr)
  /-- arithmetic in type `t` (operands already converted) -/
  | ar (op : AOp) (t : ITy) (a b : Expr)
  | cmp (op : COp) (a b : Expr)
  | not (a : Expr)
  | land (a b : Expr)
  | lor (a b : Expr)
  | cond (c a b : Expr)
  | comma (a b : Expr)
  /-- `p + scale * i`, in cells -/
  | padd (scale : Int) (p i : Expr)
  /-- `(a - b) / scale` -/
  | pdiff (scale : Int) (a b : Expr)
  | load (t : STy) (p : Expr)
  | store (t : STy) (p e : Expr)
  /-- assignment to a local variable -/
  | set (i : Nat) (e : Expr)
  /-- the value of a local variable, which is then assigned the value of `e` (`x++`) -/
  | post (i : Nat) (e : Expr)
  /-- structure assignment: `n` cells from `q` to `p` -/
  | copy (n : Nat) (p q : Expr)
  | call (f : String) (args : Args)

/-- Argument lists. -/
inductive Args where
  | nil
  | cons (e : Expr) (r : Args)
end

deriving instance Repr, Inhabited for Expr
deriving instance Repr, Inhabited for Args

/-- Statements. A `case` is a marker in the sequence of statements of its `switch`. -/
inductive Stmt where
  | skip
  | exp (e : Expr)
  | seq (a b : Stmt)
  | ite (c : Expr) (a b : Stmt)
  /-- `for (; c; step) body`; `continue` goes to `step` -/
  | loop (c : Expr) (body : Stmt) (step : Expr)
  | switch (e : Expr) (body : Stmt)
  | case (v : Int)
  | default
  | label (l : String)
  | goto (l : String)
  | brk
  | cont
  | ret (e : Expr)
  | retVoid
  /-- declaration of a local scalar without initialiser -/
  | decl (i : Nat)
  /-- declaration of a local of `n` cells that lives in memory -/
  | declMem (i n : Nat) (init : List Val) (fill : Val)
  /-- declaration of a local array of structures of `n` cells, uninitialised -/
  | declArr (i n : Nat)
  deriving Repr, Inhabited

/-- A function: number of parameters, number of local variables (parameters first), body. -/
structure CFun where
  name : String
  params : Nat
  slots : Nat
  body : Stmt
  deriving Repr, Inhabited

end L8w8jwt.C
