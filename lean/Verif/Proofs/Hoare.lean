import Verif.Spec.Sched
/-!
# Weakest preconditions for `M`

`wp m s h Q E`: running `m` under schedule `s` from heap `h` ends in a value/heap satisfying `Q`, or in undefined
behaviour satisfying `E`.
-/

namespace L8w8jwt

deriving instance DecidableEq for Except

/-- A schedule without failures, for examples. -/
def calm : Sched := { failAlloc := fun _ => false, failGrow := fun _ => none }
/-- The empty heap, for examples. -/
def heap0 : Heap := { tick := 0, live := [] }
/-- Run without allocation failures from the empty heap and test the result, for examples. -/
def runs {α : Type} (m : M α) (p : α → Bool) : Bool :=
  match m calm heap0 with
  | .ok (a, _) => p a
  | .error _ => false

/-- Weakest precondition. -/
def wp {α : Type} (m : M α) (s : Sched) (h : Heap) (Q : α → Heap → Prop) (E : UB → Prop) : Prop :=
  match m s h with
  | .ok (a, h') => Q a h'
  | .error e => E e

/-- Weakest precondition of a pure computation. -/
def rwp {α : Type} (r : Res α) (Q : α → Prop) (E : UB → Prop) : Prop :=
  match r with
  | .ok a => Q a
  | .error e => E e

variable {α β : Type} {s : Sched} {h : Heap}

theorem run_pure (a : α) : (pure a : M α) s h = .ok (a, h) := rfl
theorem run_bind (m : M α) (f : α → M β) : (m >>= f) s h =
    match m s h with
    | .error e => .error e
    | .ok (a, h') => f a s h' := rfl
theorem run_bind_ok {m : M α} {a : α} {h' : Heap} (f : α → M β) (hm : m s h = .ok (a, h')) :
    (m >>= f) s h = f a s h' := by rw [run_bind, hm]
theorem run_lift_ok (a : α) : (M.lift (.ok a) : M α) s h = .ok (a, h) := rfl
theorem run_lift_error (e : UB) : (M.lift (.error e) : M α) s h = .error e := rfl

@[simp] theorem wp_pure (a : α) (Q : α → Heap → Prop) (E : UB → Prop) : wp (pure a : M α) s h Q E ↔ Q a h := Iff.rfl

@[simp] theorem wp_bind (m : M α) (f : α → M β) (Q : β → Heap → Prop) (E : UB → Prop) :
    wp (m >>= f) s h Q E ↔ wp m s h (fun a h' => wp (f a) s h' Q E) E := by
  show wp (M.bind m f) s h Q E ↔ _
  unfold wp M.bind
  cases m s h with
  | error e => simp
  | ok p => simp

@[simp] theorem wp_lift (r : Res α) (Q : α → Heap → Prop) (E : UB → Prop) :
    wp (M.lift r) s h Q E ↔ rwp r (fun a => Q a h) E := by
  cases r <;> simp [wp, rwp, M.lift]

@[simp] theorem rwp_ok (a : α) (Q : α → Prop) (E : UB → Prop) : rwp (.ok a : Res α) Q E ↔ Q a := Iff.rfl
@[simp] theorem rwp_pure (a : α) (Q : α → Prop) (E : UB → Prop) : rwp (pure a : Res α) Q E ↔ Q a := Iff.rfl
@[simp] theorem rwp_error (e : UB) (Q : α → Prop) (E : UB → Prop) : rwp (.error e : Res α) Q E ↔ E e := Iff.rfl
@[simp] theorem rwp_bind (r : Res α) (f : α → Res β) (Q : β → Prop) (E : UB → Prop) :
    rwp (r >>= f) Q E ↔ rwp r (fun a => rwp (f a) Q E) E := by
  cases r <;> simp [rwp, bind, Except.bind]

theorem wp_mono {m : M α} {Q Q' : α → Heap → Prop} {E E' : UB → Prop}
    (hm : wp m s h Q E) (hQ : ∀ a h', Q a h' → Q' a h') (hE : ∀ e, E e → E' e) : wp m s h Q' E' := by
  unfold wp at *
  cases hh : m s h with
  | error e => rw [hh] at hm; exact hE _ hm
  | ok p => rw [hh] at hm; exact hQ _ _ hm

theorem rwp_mono {r : Res α} {Q Q' : α → Prop} {E E' : UB → Prop}
    (hm : rwp r Q E) (hQ : ∀ a, Q a → Q' a) (hE : ∀ e, E e → E' e) : rwp r Q' E' := by
  unfold rwp at *
  cases r with
  | error e => exact hE _ hm
  | ok p => exact hQ _ hm

theorem wp_of_eq {m : M α} {a : α} {h' : Heap} {Q : α → Heap → Prop} {E : UB → Prop}
    (hm : m s h = .ok (a, h')) (hQ : Q a h') : wp m s h Q E := by
  unfold wp; rw [hm]; exact hQ

theorem rwp_of_eq {r : Res α} {a : α} {Q : α → Prop} {E : UB → Prop} (hr : r = .ok a) (hQ : Q a) : rwp r Q E := by
  subst hr; exact hQ

/-- A result without undefined behaviour. -/
theorem wp_iff_exists {m : M α} {Q : α → Heap → Prop} :
    wp m s h Q (fun _ => False) ↔ ∃ a h', m s h = .ok (a, h') ∧ Q a h' := by
  unfold wp
  cases m s h with
  | error e => simp
  | ok p =>
    obtain ⟨a, h'⟩ := p
    constructor
    · intro hq; exact ⟨a, h', rfl, hq⟩
    · rintro ⟨a', h'', he, hq⟩; cases he; exact hq

theorem rwp_iff_exists {r : Res α} {Q : α → Prop} : rwp r Q (fun _ => False) ↔ ∃ a, r = .ok a ∧ Q a := by
  unfold rwp
  cases r <;> simp

theorem wp_iff_forall {m : M α} {Q : α → Heap → Prop} :
    wp m s h Q (fun _ => True) ↔ ∀ a h', m s h = .ok (a, h') → Q a h' := by
  unfold wp
  cases m s h with
  | error e => simp
  | ok p =>
    obtain ⟨a, h'⟩ := p
    constructor
    · intro hq a' h'' he; cases he; exact hq
    · intro hq; exact hq _ _ rfl

theorem rwp_iff_forall {r : Res α} {Q : α → Prop} : rwp r Q (fun _ => True) ↔ ∀ a, r = .ok a → Q a := by
  unfold rwp
  cases r <;> simp

theorem Sched.good.grow {s : Sched} (g : s.good) : s.noGrowFail := g.2

theorem Sched.good.alloc {s : Sched} (g : s.good) : s.noAllocFail := g.1

theorem wp_alloc (c : Bytes) (Q : Ptr → Heap → Prop) (E : UB → Prop) :
    wp (alloc c) s h Q E ↔ (s.failAlloc h.tick = true → Q none { h with tick := h.tick + 1 }) ∧
      (s.failAlloc h.tick = false → Q (some ⟨h.tick, c⟩) { tick := h.tick + 1, live := h.tick :: h.live }) := by
  unfold wp alloc
  cases hh : s.failAlloc h.tick <;> simp

theorem wp_alloc_good (g : s.good) (c : Bytes) (Q : Ptr → Heap → Prop) (E : UB → Prop) :
    wp (alloc c) s h Q E ↔ Q (some ⟨h.tick, c⟩) { tick := h.tick + 1, live := h.tick :: h.live } := by
  simp [wp_alloc, g.1]

theorem wp_push (g : s.noGrowFail) {cap : Nat} (b xs : List α) (Q : List α → Heap → Prop) (E : UB → Prop) :
    wp (push cap b xs) s h Q E ↔ Q (b ++ xs) { h with tick := h.tick + 1 } := by
  unfold wp push
  simp [g h.tick]

theorem wp_push_any {cap : Nat} (b xs : List α) (Q : List α → Heap → Prop) (E : UB → Prop)
    (hQ : ∀ l, Q l { h with tick := h.tick + 1 }) : wp (push cap b xs) s h Q E := by
  unfold wp push
  cases s.failGrow h.tick <;> simp only [hQ]

@[simp] theorem wp_free_none (Q : Unit → Heap → Prop) (E : UB → Prop) : wp (free none) s h Q E ↔ Q () h := Iff.rfl

theorem wp_free_some (b : Block) (Q : Unit → Heap → Prop) (E : UB → Prop) (hl : b.id ∈ h.live)
    (hQ : Q () { h with live := h.live.erase b.id }) : wp (free (some b)) s h Q E := by
  unfold wp free
  simp [hl, hQ]

/-- The live blocks are the same as before. -/
def Keeps (h h' : Heap) : Prop := h'.live = h.live ∧ h.tick ≤ h'.tick

theorem Keeps.refl (h : Heap) : Keeps h h := ⟨rfl, Nat.le_refl _⟩
theorem Keeps.trans {h1 h2 h3 : Heap} (a : Keeps h1 h2) (b : Keeps h2 h3) : Keeps h1 h3 :=
  ⟨b.1.trans a.1, Nat.le_trans a.2 b.2⟩
theorem Keeps.tick (h : Heap) : Keeps h { h with tick := h.tick + 1 } := ⟨rfl, Nat.le_succ _⟩

/-- `r`, appended at position `off` of a buffer with initial capacity `cap`, is `e`, or, if growing the buffer may fail and the
initial capacity does not suffice, at least not longer than `e`. -/
def Upto (s : Sched) (cap off : Nat) (r e : List α) : Prop := r.length ≤ e.length ∧ (s.noGrowFail ∨ off + e.length ≤ cap → r = e)

theorem Upto.refl {c o : Nat} (l : List α) : Upto s c o l l := ⟨Nat.le_refl _, fun _ => rfl⟩
theorem Upto.append {c o o' : Nat} {a b x y : List α} (h1 : Upto s c o a b) (h2 : Upto s c o' x y) (ho : o' ≤ o + a.length) :
    Upto s c o (a ++ x) (b ++ y) := by
  have l1 := h1.1
  have l2 := h2.1
  refine ⟨by simp; omega, fun g => ?_⟩
  simp only [List.length_append] at g
  rw [h1.2 (g.imp id (by omega)), h2.2 (g.imp id (by omega))]
theorem Upto.trans {c o c' o' : Nat} {a b d : List α} (h1 : Upto s c o a b) (h2 : Upto s c' o' b d)
    (ho : o + d.length ≤ c → o' + d.length ≤ c') : Upto s c o a d := by
  have l2 := h2.1
  exact ⟨Nat.le_trans h1.1 h2.1, fun g => (h1.2 (g.imp id (by omega))).trans (h2.2 (g.imp id ho))⟩
theorem Upto.weaken {c c' o : Nat} {a b : List α} (h : Upto s c o a b) (hc : c' ≤ c) : Upto s c' o a b :=
  ⟨h.1, fun g => h.2 (g.imp id (by omega))⟩

/-- A push under any schedule: something is appended; all of it if growing does not fail or is not necessary. -/
theorem wp_push' {cap : Nat} (b xs : List α) (Q : List α → Heap → Prop) (E : UB → Prop)
    (hQ : ∀ ys, Upto s cap b.length ys xs → Q (b ++ ys) { h with tick := h.tick + 1 }) :
    wp (push cap b xs) s h Q E := by
  unfold wp push
  cases hg : s.failGrow h.tick with
  | none => exact hQ xs (Upto.refl _)
  | some j =>
    simp only
    split
    · refine hQ (xs.take j) ⟨List.length_take_le' _ _, fun g => ?_⟩
      rcases g with g | g
      · simp [g h.tick] at hg
      · exact List.take_of_length_le (by omega)
    · exact hQ xs (Upto.refl _)

/-- A computation that, if it is defined, leaves the live blocks as they were. -/
def KeepsM (m : M α) : Prop := ∀ s h, wp m s h (fun _ h' => Keeps h h') (fun _ => True)

theorem KeepsM.pure (a : α) : KeepsM (pure a : M α) := fun _ h => Keeps.refl h
theorem KeepsM.lift (r : Res α) : KeepsM (M.lift r) := fun _ h => by
  rw [wp_lift]; cases r <;> simp [Keeps.refl]
theorem KeepsM.bind {m : M α} {f : α → M β} (hm : KeepsM m) (hf : ∀ a, KeepsM (f a)) : KeepsM (m >>= f) := fun s h => by
  rw [wp_bind]
  refine wp_mono (hm s h) (fun a h1 k1 => ?_) (fun _ h => h)
  exact wp_mono (hf a s h1) (fun b h2 k2 => k1.trans k2) (fun _ h => h)
theorem KeepsM.push {cap : Nat} (b xs : List α) : KeepsM (push cap b xs) := fun _ h => wp_push' _ _ _ _ fun _ _ => Keeps.tick h
theorem KeepsM.ite {c : Prop} [Decidable c] {m n : M α} (hm : KeepsM m) (hn : KeepsM n) : KeepsM (if c then m else n) := by
  split
  · exact hm
  · exact hn

end L8w8jwt
