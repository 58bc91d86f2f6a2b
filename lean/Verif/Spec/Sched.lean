import Verif.Model.Heap
/-!
# Which allocations fail

`Sched` (Verif/Model/Heap.lean) says which allocations fail; these are the schedules that properties speak about.
-/

namespace L8w8jwt

/-- No allocation ever fails. -/
def Sched.good (s : Sched) : Prop := (∀ k, s.failAlloc k = false) ∧ ∀ k, s.failGrow k = none

/-- Allocations of new blocks never fail (growing a buffer may). -/
def Sched.noAllocFail (s : Sched) : Prop := ∀ k, s.failAlloc k = false

/-- Growing a buffer never fails (allocations of new blocks may). -/
def Sched.noGrowFail (s : Sched) : Prop := ∀ k, s.failGrow k = none

end L8w8jwt
