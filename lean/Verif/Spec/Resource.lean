import Verif.Model.Resource
/-!
# When a sequence of operations on objects and key copies is in order
-/

namespace L8w8jwt.Spec

/-- State of an object. -/
inductive ObjState where
  /-- never initialised -/
  | raw
  /-- initialised, has no memory of its own -/
  | empty
  /-- may own memory -/
  | full
  /-- refers to the memory of another object -/
  | view (o : Obj)
  /-- released -/
  | dead
  deriving DecidableEq, Repr

/-- State of all objects and of the two key copies (`true`: contains key material). -/
structure ResState where
  obj : Obj → ObjState
  key : Bool
  ed : Bool

/-- At the start of a function. -/
def ResState.start : ResState := ⟨fun _ => .raw, false, false⟩

def ResState.set (s : ResState) (o : Obj) (x : ObjState) : ResState := { s with obj := fun i => if i = o then x else s.obj i }

/-- May the object be read? -/
def ResState.readable (s : ResState) (o : Obj) : Bool :=
  match s.obj o with
  | .empty | .full => true
  | .view q => s.obj q == .full
  | .raw | .dead => false

/-- One operation; `none`: it is wrong (use of a released or uninitialised object, loss of memory, double release). -/
def ResState.step (s : ResState) : Ev → Option ResState
  | .init o => if s.obj o = .raw then some (s.set o .empty) else none
  | .fill o => if s.obj o = .empty ∨ s.obj o = .full then some (s.set o .full) else none
  | .use o => if s.readable o then some s else none
  | .share d q => if s.obj d = .empty ∧ s.obj q = .full then some (s.set d (.view q)) else none
  | .free o => if s.obj o = .empty ∨ s.obj o = .full then some (s.set o .dead) else none
  | .copyKey => some { s with key := true }
  | .wipeKey => some { s with key := false }
  | .copyEd => some { s with ed := true }
  | .wipeEd => some { s with ed := false }

/-- A sequence of operations. -/
def ResState.run (s : ResState) : List Ev → Option ResState
  | [] => some s
  | e :: t => (s.step e).bind fun s => s.run t

/-- Every operation of the function is in order, and when it returns nothing owns memory and no copy of the key is left. -/
def Tidy (evs : List Ev) : Prop := ∃ s, ResState.start.run evs = some s ∧ (∀ o, s.obj o ≠ .full) ∧ s.key = false ∧ s.ed = false

/-- Nothing is left of what was stored there. -/
def Blank (b : Bytes) : Prop := ∀ x ∈ b, x = 0

end L8w8jwt.Spec
