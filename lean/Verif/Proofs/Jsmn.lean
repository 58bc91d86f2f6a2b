import Verif.Model.Jsmn
import Verif.Spec.Claim
/-!
# Invariants of the tokenizer
-/

namespace L8w8jwt
open Spec

/-! ## The two passes agree -/

/-- The state of the counting pass that corresponds to a state of the storing pass. -/
def JState.counted (st : JState) : JState := ⟨st.count, []⟩

theorem jAlloc_count {n : Nat} {st st' : JState} {t : Tok} (h : jAlloc (some n) st t = .ok st') :
    jAlloc none st.counted t = .ok st'.counted := by
  simp only [jAlloc] at h ⊢
  split at h
  · cases h
  · cases h; rfl

theorem jMain_count {n : Nat} {c : UInt8} {pos : Nat} {m : JMode} {st st' : JState}
    (h : jMain (some n) c pos st = .ok (m, st')) : jMain none c pos st.counted = .ok (m, st'.counted) := by
  unfold jMain at h ⊢
  by_cases h1 : c = 123 ∨ c = 91
  · rw [if_pos h1] at h ⊢
    generalize hg : jAlloc (some n) st _ = x at h
    cases x with
    | error e => cases h
    | ok x =>
      rw [jAlloc_count hg]
      cases h; rfl
  · rw [if_neg h1] at h ⊢
    by_cases h2 : c = 125 ∨ c = 93
    · rw [if_pos h2] at h ⊢
      simp only at h ⊢
      split at h
      · cases h
      · cases h; rfl
    · rw [if_neg h2] at h ⊢
      by_cases h3 : c = 34
      · rw [if_pos h3] at h ⊢; cases h; rfl
      · rw [if_neg h3] at h ⊢
        by_cases h4 : c = 9 ∨ c = 13 ∨ c = 10 ∨ c = 32 ∨ c = 58 ∨ c = 44
        · rw [if_pos h4] at h ⊢; cases h; rfl
        · rw [if_neg h4] at h ⊢
          by_cases h5 : c < 32 ∨ 127 ≤ c
          · rw [if_pos h5] at h; cases h
          · rw [if_neg h5] at h ⊢; cases h; rfl

theorem jStep_count {n : Nat} {c : UInt8} {pos : Nat} {m m' : JMode} {st st' : JState}
    (h : jStep (some n) c pos m st = .ok (m', st')) : jStep none c pos m st.counted = .ok (m', st'.counted) := by
  cases m with
  | main => exact jMain_count h
  | str a sm =>
    cases sm with
    | plain =>
      simp only [jStep] at h ⊢
      by_cases h1 : c = 34
      · rw [if_pos h1] at h ⊢
        generalize hg : jAlloc (some n) st _ = x at h
        cases x with
        | error e => cases h
        | ok x => rw [jAlloc_count hg]; cases h; rfl
      · rw [if_neg h1] at h ⊢
        split at h <;> · cases h; simp [*]
    | esc =>
      simp only [jStep] at h ⊢
      split at h
      · cases h; simp [*]
      · split at h <;> cases h; simp [*]; decide
    | hex k =>
      simp only [jStep] at h ⊢
      split at h <;> cases h; simp [*]
  | prim a =>
    simp only [jStep] at h ⊢
    by_cases h1 : primStop c = true
    · rw [if_pos h1] at h ⊢
      generalize hg : jAlloc (some n) st _ = x at h
      cases x with
      | error e => cases h
      | ok x => rw [jAlloc_count hg]; exact jMain_count h
    · rw [if_neg h1] at h ⊢
      split at h <;> cases h; rename_i hx; rw [if_neg hx]

theorem jEnd_count {n pos : Nat} {nul : Bool} {m : JMode} {st st' : JState}
    (h : jEnd (some n) pos nul m st = .ok st') : jEnd none pos nul m st.counted = .ok st'.counted := by
  cases m with
  | main =>
    simp only [jEnd] at h ⊢
    split at h
    · cases h
    · cases h; rfl
  | str a sm => cases sm <;> simp only [jEnd] at h <;> (try split at h) <;> cases h
  | prim a =>
    simp only [jEnd] at h ⊢
    generalize hg : jAlloc (some n) st _ = x at h
    cases x with
    | error e => cases h
    | ok x =>
      rw [jAlloc_count hg]
      simp only at h ⊢
      split at h
      · cases h
      · cases h; rfl

theorem jLoop_count {n : Nat} (t : Bytes) (pos : Nat) (m : JMode) (st st' : JState)
    (h : jLoop (some n) t pos m st = .ok st') : jLoop none t pos m st.counted = .ok st'.counted := by
  induction t generalizing pos m st with
  | nil => exact jEnd_count h
  | cons c t ih =>
    simp only [jLoop] at h ⊢
    by_cases h0 : c = 0
    · rw [if_pos h0] at h ⊢; exact jEnd_count h
    · rw [if_neg h0] at h ⊢
      generalize hg : jStep (some n) c pos m st = x at h
      cases x with
      | error e => cases h
      | ok x =>
        obtain ⟨m', st1⟩ := x
        rw [jStep_count hg]
        exact ih _ _ _ h

/-- A successful storing pass stores as many tokens as the counting pass counts. -/
theorem jsmn_counts {js : Bytes} {cap n r : Nat} {toks : List Tok} (hc : jsmnCount js = .ok n) (hp : jsmnParse js cap = .ok (r, toks)) :
    r = n := by
  unfold jsmnParse at hp
  unfold jsmnCount at hc
  generalize hg : jLoop (some cap) js 0 .main ⟨0, []⟩ = x at hp
  cases x with
  | error e => cases hp
  | ok st =>
    have := jLoop_count _ _ _ _ _ hg
    simp only [JState.counted] at this
    rw [this] at hc
    cases hp; cases hc; rfl

/-! ## Positions -/

/-- A token that is closed before `pos`, or still open. -/
def TokOk (pos : Nat) (t : Tok) : Prop :=
  0 ≤ t.start ∧ ((t.end_ = -1 ∧ (t.type = .object ∨ t.type = .array) ∧ t.start < pos) ∨
    (t.start ≤ t.end_ ∧ t.end_ ≤ pos ∧ (t.type = .object ∨ t.type = .array ∨ t.type = .string ∨ t.type = .primitive ∧ t.start < t.end_)))

theorem TokOk.mono {pos pos' : Nat} {t : Tok} (h : TokOk pos t) (hp : pos ≤ pos') : TokOk pos' t := by
  obtain ⟨h0, h1 | h1⟩ := h
  · exact ⟨h0, Or.inl ⟨h1.1, h1.2.1, by omega⟩⟩
  · exact ⟨h0, Or.inr ⟨h1.1, by omega, h1.2.2⟩⟩

/-- The invariant: `pos` characters have been consumed. -/
structure JInv (pos : Nat) (m : JMode) (st : JState) : Prop where
  count : st.count = st.toks.length
  toks : ∀ t ∈ st.toks, TokOk pos t
  mode : match m with
    | .main => True
    | .str a _ => a ≤ pos
    | .prim a => a < pos

theorem JInv.alloc {n pos pos' : Nat} {m m' : JMode} {st st' : JState} {t : Tok} (i : JInv pos m st)
    (h : jAlloc (some n) st t = .ok st') (hp : pos ≤ pos') (ht : TokOk pos' t)
    (hm : match m' with
      | .main => True
      | .str a _ => a ≤ pos'
      | .prim a => a < pos') : JInv pos' m' st' := by
  simp only [jAlloc] at h
  split at h
  · cases h
  · cases h
    refine ⟨by simp [i.count], fun x hx => ?_, hm⟩
    rcases List.mem_cons.mp hx with rfl | hx
    · exact ht
    · exact (i.toks x hx).mono hp

theorem jClose_ok {type : JType} {pos : Nat} (l l' : List Tok) (hl : ∀ t ∈ l, TokOk pos t)
    (h : jClose type (pos + 1) l = .ok l') : (∀ t ∈ l', TokOk (pos + 1) t) ∧ l'.length = l.length := by
  induction l generalizing l' with
  | nil => cases h
  | cons t ts ih =>
    simp only [jClose] at h
    by_cases h1 : t.start ≠ -1 ∧ t.end_ = -1
    · rw [if_pos h1] at h
      by_cases h2 : t.type ≠ type
      · rw [if_pos h2] at h; cases h
      · rw [if_neg h2] at h
        cases h
        have ht := hl t (by simp)
        refine ⟨fun x hx => ?_, by simp⟩
        rcases List.mem_cons.mp hx with rfl | hx
        · obtain ⟨h0, h3 | h3⟩ := ht
          · exact ⟨h0, Or.inr ⟨by dsimp only; omega, by dsimp only; omega, by rcases h3.2.1 with h | h <;> simp [h]⟩⟩
          · omega
        · exact (hl x (by simp [hx])).mono (by omega)
    · rw [if_neg h1] at h
      generalize hg : jClose type (pos + 1) ts = y at h
      cases y with
      | error e => cases h
      | ok ts' =>
        cases h
        obtain ⟨h1, h2⟩ := ih ts' (fun x hx => hl x (by simp [hx])) hg
        refine ⟨fun x hx => ?_, by simp [h2]⟩
        rcases List.mem_cons.mp hx with rfl | hx
        · exact (hl x (by simp)).mono (by omega)
        · exact h1 x hx

theorem JInv.main {n pos : Nat} {c : UInt8} {m m' : JMode} {st st' : JState} (i : JInv pos m st)
    (h : jMain (some n) c pos st = .ok (m', st')) : JInv (pos + 1) m' st' := by
  unfold jMain at h
  have keep : ∀ m'' : JMode, (match m'' with
      | .main => True
      | .str a _ => a ≤ pos + 1
      | .prim a => a < pos + 1) → JInv (pos + 1) m'' st := fun m'' hm'' =>
    ⟨i.count, fun t ht => (i.toks t ht).mono (by omega), hm''⟩
  by_cases h1 : c = 123 ∨ c = 91
  · rw [if_pos h1] at h
    generalize hg : jAlloc (some n) st _ = x at h
    cases x with
    | error e => cases h
    | ok x =>
      cases h
      refine i.alloc hg (by omega) ⟨by simp, Or.inl ⟨rfl, ?_, by simp; omega⟩⟩ trivial
      split <;> simp
  · rw [if_neg h1] at h
    by_cases h2 : c = 125 ∨ c = 93
    · rw [if_pos h2] at h
      simp only at h
      generalize hg : jClose _ (pos + 1) st.toks = x at h
      cases x with
      | error e => cases h
      | ok ts =>
        cases h
        obtain ⟨h3, h4⟩ := jClose_ok _ _ i.toks hg
        exact ⟨by simp [i.count, h4], h3, trivial⟩
    · rw [if_neg h2] at h
      by_cases h3 : c = 34
      · rw [if_pos h3] at h; cases h; exact keep _ (Nat.le_refl _)
      · rw [if_neg h3] at h
        by_cases h4 : c = 9 ∨ c = 13 ∨ c = 10 ∨ c = 32 ∨ c = 58 ∨ c = 44
        · rw [if_pos h4] at h; cases h; exact keep _ trivial
        · rw [if_neg h4] at h
          by_cases h5 : c < 32 ∨ 127 ≤ c
          · rw [if_pos h5] at h; cases h
          · rw [if_neg h5] at h; cases h; exact keep _ (Nat.lt_succ_self _)

theorem JInv.step {n pos : Nat} {c : UInt8} {m m' : JMode} {st st' : JState} (i : JInv pos m st)
    (h : jStep (some n) c pos m st = .ok (m', st')) : JInv (pos + 1) m' st' := by
  have keep : ∀ m'' : JMode, (match m'' with
      | .main => True
      | .str a _ => a ≤ pos + 1
      | .prim a => a < pos + 1) → JInv (pos + 1) m'' st := fun m'' hm'' =>
    ⟨i.count, fun t ht => (i.toks t ht).mono (by omega), hm''⟩
  have hm := i.mode
  cases m with
  | main => exact i.main h
  | str a sm =>
    simp only at hm
    cases sm with
    | plain =>
      simp only [jStep] at h
      by_cases h1 : c = 34
      · rw [if_pos h1] at h
        generalize hg : jAlloc (some n) st _ = x at h
        cases x with
        | error e => cases h
        | ok x =>
          cases h
          exact i.alloc hg (by omega) ⟨by simp, Or.inr ⟨by dsimp only; omega, by dsimp only; omega, by simp⟩⟩ trivial
      · rw [if_neg h1] at h
        split at h <;> · cases h; exact keep _ (by simp only; omega)
    | esc =>
      simp only [jStep] at h
      split at h
      · cases h; exact keep _ (by simp only; omega)
      · split at h <;> cases h
        exact keep _ (by simp only; omega)
    | hex k =>
      simp only [jStep] at h
      split at h <;> cases h
      exact keep _ (by simp only; omega)
  | prim a =>
    simp only at hm
    simp only [jStep] at h
    by_cases h1 : primStop c = true
    · rw [if_pos h1] at h
      generalize hg : jAlloc (some n) st _ = x at h
      cases x with
      | error e => cases h
      | ok x =>
        have i' : JInv pos .main x := i.alloc hg (by omega)
          ⟨by simp, Or.inr ⟨by dsimp only; omega, by dsimp only; omega, by dsimp only; right; right; right; exact ⟨rfl, by omega⟩⟩⟩ trivial
        exact i'.main h
    · rw [if_neg h1] at h
      split at h <;> cases h
      exact keep _ (by simp only; omega)

/-- A complete token inside the text. -/
def TokIn (n : Nat) (t : Tok) : Prop :=
  0 ≤ t.start ∧ t.start ≤ t.end_ ∧ t.end_ ≤ n ∧
    (t.type = .object ∨ t.type = .array ∨ t.type = .string ∨ t.type = .primitive ∧ t.start < t.end_)

theorem tokIn_of_closed {pos : Nat} {l : List Tok} (h : ∀ t ∈ l, TokOk pos t)
    (ho : l.any (fun t => t.start != -1 && t.end_ == -1) = false) : ∀ t ∈ l, TokIn pos t := by
  intro t ht
  have h1 := List.any_eq_false.mp ho t ht
  obtain ⟨h0, h2 | h2⟩ := h t ht
  · exfalso
    apply h1
    simp only [Bool.and_eq_true, bne_iff_ne, ne_eq, beq_iff_eq]
    exact ⟨by omega, h2.1⟩
  · exact ⟨h0, h2.1, h2.2.1, h2.2.2⟩

theorem JInv.fin {n pos : Nat} {nul : Bool} {m : JMode} {st st' : JState} (i : JInv pos m st)
    (h : jEnd (some n) pos nul m st = .ok st') : st'.count = st'.toks.length ∧ ∀ t ∈ st'.toks, TokIn pos t := by
  have hm := i.mode
  cases m with
  | main =>
    simp only [jEnd] at h
    split at h
    · cases h
    · rename_i ho
      cases h
      exact ⟨i.count, tokIn_of_closed i.toks (by simpa using ho)⟩
  | str a sm => cases sm <;> simp only [jEnd] at h <;> (try split at h) <;> cases h
  | prim a =>
    simp only at hm
    simp only [jEnd] at h
    generalize hg : jAlloc (some n) st _ = x at h
    cases x with
    | error e => cases h
    | ok x =>
      simp only at h
      have i' : JInv pos .main x := i.alloc hg (by omega)
          ⟨by simp, Or.inr ⟨by dsimp only; omega, by dsimp only; omega, by dsimp only; right; right; right; exact ⟨rfl, by omega⟩⟩⟩ trivial
      split at h
      · cases h
      · rename_i ho
        cases h
        exact ⟨i'.count, tokIn_of_closed i'.toks (by simpa using ho)⟩

theorem jLoop_inv {n : Nat} (t : Bytes) (pos : Nat) (m : JMode) (st st' : JState) (i : JInv pos m st)
    (h : jLoop (some n) t pos m st = .ok st') : st'.count = st'.toks.length ∧ ∀ x ∈ st'.toks, TokIn (pos + (cString t).length) x := by
  induction t generalizing pos m st with
  | nil => exact i.fin h
  | cons c t ih =>
    simp only [jLoop] at h
    by_cases h0 : c = 0
    · rw [if_pos h0] at h
      have : cString (c :: t) = [] := by simp [cString, h0]
      rw [this]
      exact i.fin h
    · rw [if_neg h0] at h
      have : cString (c :: t) = c :: cString t := by simp [cString, h0]
      rw [this]
      generalize hg : jStep (some n) c pos m st = x at h
      cases x with
      | error e => cases h
      | ok x =>
        obtain ⟨m', st1⟩ := x
        have := ih _ _ _ (i.step hg) h
        simpa [Nat.add_assoc, Nat.add_comm 1] using this

/-- All tokens are complete and lie before the first NUL. -/
theorem jsmnParse_inv {js : Bytes} {cap r : Nat} {toks : List Tok} (h : jsmnParse js cap = .ok (r, toks)) :
    r = toks.length ∧ ∀ t ∈ toks, TokIn (cString js).length t := by
  unfold jsmnParse at h
  generalize hg : jLoop (some cap) js 0 .main ⟨0, []⟩ = x at h
  cases x with
  | error e => cases h
  | ok st =>
    cases h
    have := jLoop_inv js 0 .main ⟨0, []⟩ st ⟨rfl, (fun _ hx => nomatch hx), trivial⟩ hg
    simp only [Nat.zero_add] at this
    exact ⟨by simp [this.1], fun t ht => this.2 t (by simpa using ht)⟩

end L8w8jwt
