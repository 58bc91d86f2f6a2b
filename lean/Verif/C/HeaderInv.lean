import Verif.C.EncodeHeap
/-!
# Memory during write_header_and_payload (src/encode.c:75-216)

Objects: the string builder `B` of the caller with the block `bid`; the local buffer (`stack k`) with the block `t0`; the other local
variables (`stack (k + 1)`, ..); while a segment is in use, its block.
-/

namespace L8w8jwt.C
open L8w8jwt L8w8jwt.C.Src

/-- The block of the segment. -/
def segAt (sg : Option (Nat × List Val)) (j : Nat) : Option (List Val) :=
  match sg with
  | some (i, l) => if j = i then some l else none
  | none => none

/-- The state of memory and of the allocator. -/
structure HP (m0 : Blk → Option (List Val)) (k t0 : Nat) (B : Blk) (bid : Nat) (sg : Option (Nat × List Val)) (sb buf : Bytes)
    (ex : List (List Val)) (heap : Heap) (mem : Blk → Option (List Val)) : Prop where
  sbA : BufAt mem B bid 1024 sb
  bufA : BufAt mem (.stack k) t0 256 buf
  ex : ∀ i, mem (.stack (k + 1 + i)) = ex[i]?
  hp : ∀ j, t0 < j → mem (.heap j) = segAt sg j
  old : ∀ x, x ≠ B → x ≠ .heap bid → (∀ j, k ≤ j → x ≠ .stack j) → (∀ j, t0 ≤ j → x ≠ .heap j) → mem x = m0 x
  Bs : ∀ j, k ≤ j → B ≠ .stack j
  Bh : ∀ j, t0 ≤ j → B ≠ .heap j
  bt : bid < t0
  tick : t0 < heap.tick
  live : t0 ∈ heap.live
  sgt : ∀ i l, sg = some (i, l) → i < heap.tick

section
variable {m0 : Blk → Option (List Val)} {k t0 : Nat} {B : Blk} {bid : Nat} {sg : Option (Nat × List Val)} {sb buf : Bytes}
  {ex : List (List Val)} {heap : Heap} {mem : Blk → Option (List Val)}

theorem HP.wf (h : HP m0 k t0 B bid sg sb buf ex heap mem) (fr : List Val) : Wf ⟨fr, heap, mem, k + 1 + ex.length⟩ where
  stack := by
    intro j hj
    simp only at hj
    have := h.ex (j - (k + 1))
    rw [show k + 1 + (j - (k + 1)) = j by omega] at this
    simp only
    rw [this]
    simp
    omega
  heap := by
    intro i hi
    simp only at hi
    have ht := h.tick
    show mem (.heap i) = none
    rw [h.hp i (by omega)]
    unfold segAt
    split
    · rename_i j l
      have := h.sgt j l rfl
      rw [if_neg (by omega)]
    · rfl

theorem HP.keep (h : HP m0 k t0 B bid sg sb buf ex heap mem) {heap' : Heap} (hk : Keeps heap heap') :
    HP m0 k t0 B bid sg sb buf ex heap' mem :=
  { h with
    tick := Nat.lt_of_lt_of_le h.tick hk.2
    live := by rw [hk.1]; exact h.live
    sgt := fun i l e => Nat.lt_of_lt_of_le (h.sgt i l e) hk.2 }

theorem HP.pushBuf (h : HP m0 k t0 B bid sg sb buf ex heap mem) {buf' : Bytes} {mem' : Blk → Option (List Val)}
    (hb : BufAt mem' (.stack k) t0 256 buf') (hf : Frame mem mem' (.stack k) t0) : HP m0 k t0 B bid sg sb buf' ex heap mem' :=
  { h with
    sbA := h.sbA.frame hf (h.Bs k (Nat.le_refl _)) (h.Bh t0 (Nat.le_refl _)) (by simp) (by have := h.bt; omega)
    bufA := hb
    ex := fun i => by rw [hf _ (by simp; omega) (by simp)]; exact h.ex i
    hp := fun j hj => by rw [hf _ (by simp) (by simp; omega)]; exact h.hp j hj
    old := fun x h1 h2 h3 h4 => by rw [hf _ (h3 k (Nat.le_refl _)) (h4 t0 (Nat.le_refl _))]; exact h.old x h1 h2 h3 h4 }

theorem HP.pushSb (h : HP m0 k t0 B bid sg sb buf ex heap mem) {sb' : Bytes} {mem' : Blk → Option (List Val)}
    (hb : BufAt mem' B bid 1024 sb') (hf : Frame mem mem' B bid) : HP m0 k t0 B bid sg sb' buf ex heap mem' :=
  { h with
    sbA := hb
    bufA := h.bufA.frame hf (h.Bs k (Nat.le_refl _)).symm (by simp) (h.Bh t0 (Nat.le_refl _)).symm (by have := h.bt; omega)
    ex := fun i => by rw [hf _ (h.Bs _ (by omega)).symm (by simp)]; exact h.ex i
    hp := fun j hj => by rw [hf _ (h.Bh _ (by omega)).symm (by have := h.bt; simp; omega)]; exact h.hp j hj
    old := fun x h1 h2 h3 h4 => by rw [hf _ h1 h2]; exact h.old x h1 h2 h3 h4 }

theorem BufAt.upd {mem : Blk → Option (List Val)} {b : Blk} {id cap : Nat} {buf : Bytes} (h : BufAt mem b id cap buf) {x : Blk}
    {l : Option (List Val)} (h1 : b ≠ x) (h2 : Blk.heap id ≠ x) : BufAt (upd mem x l) b id cap buf := by
  obtain ⟨ho, hne, hcl, ⟨g, hstruct⟩, rest, harr⟩ := h
  exact ⟨ho, hne, hcl, ⟨g, (upd_ne _ _ h1).trans hstruct⟩, rest, (upd_ne _ _ h2).trans harr⟩

theorem HP.setEx (h : HP m0 k t0 B bid sg sb buf ex heap mem) {i : Nat} (hi : i < ex.length) (l : List Val) :
    HP m0 k t0 B bid sg sb buf (ex.set i l) heap (upd mem (.stack (k + 1 + i)) (some l)) :=
  { h with
    sbA := h.sbA.upd (h.Bs _ (by omega)) (by simp)
    bufA := h.bufA.upd (by simp; omega) (by simp)
    ex := fun j => by
      by_cases hj : j = i
      · subst hj
        rw [upd_same, List.getElem?_set_self hi]
      · rw [upd_ne _ _ (by simp; omega), List.getElem?_set_ne (by omega)]
        exact h.ex j
    hp := fun j hj => by rw [upd_ne _ _ (by simp)]; exact h.hp j hj
    old := fun x h1 h2 h3 h4 => by rw [upd_ne _ _ (h3 _ (by omega))]; exact h.old x h1 h2 h3 h4 }

theorem HP.decl (h : HP m0 k t0 B bid sg sb buf ex heap mem) (l : List Val) :
    HP m0 k t0 B bid sg sb buf (ex ++ [l]) heap (upd mem (.stack (k + 1 + ex.length)) (some l)) :=
  { h with
    sbA := h.sbA.upd (h.Bs _ (by omega)) (by simp)
    bufA := h.bufA.upd (by simp; omega) (by simp)
    ex := fun j => by
      by_cases hj : j = ex.length
      · subst hj
        rw [upd_same]
        simp
      · rw [upd_ne _ _ (by simp; omega), h.ex j]
        by_cases hl : j < ex.length
        · rw [List.getElem?_append_left hl]
        · rw [List.getElem?_eq_none (by omega), List.getElem?_eq_none (by simp; omega)]
    hp := fun j hj => by rw [upd_ne _ _ (by simp)]; exact h.hp j hj
    old := fun x h1 h2 h3 h4 => by rw [upd_ne _ _ (h3 _ (by omega))]; exact h.old x h1 h2 h3 h4 }

theorem HP.alloc (h : HP m0 k t0 B bid none sb buf ex heap mem) (l : List Val) :
    HP m0 k t0 B bid (some (heap.tick, l)) sb buf ex { tick := heap.tick + 1, live := heap.tick :: heap.live }
      (upd mem (.heap heap.tick) (some l)) :=
  have ht := h.tick
  { h with
    sbA := h.sbA.upd (h.Bh _ (by omega)) (by have := h.bt; simp; omega)
    bufA := h.bufA.upd (by simp) (by simp; omega)
    ex := fun j => by rw [upd_ne _ _ (by simp)]; exact h.ex j
    hp := fun j hj => by
      simp only [segAt]
      by_cases hj' : j = heap.tick
      · subst hj'
        rw [upd_same, if_pos rfl]
      · rw [upd_ne _ _ (by simp; omega), if_neg hj']
        exact h.hp j hj
    old := fun x h1 h2 h3 h4 => by rw [upd_ne _ _ (h4 _ (by omega))]; exact h.old x h1 h2 h3 h4
    tick := by simp only; omega
    live := List.mem_cons_of_mem _ h.live
    sgt := fun i l e => by cases e; simp }

theorem HP.free {i : Nat} {l : List Val} (h : HP m0 k t0 B bid (some (i, l)) sb buf ex heap mem) (hi : t0 < i) :
    HP m0 k t0 B bid none sb buf ex { heap with live := heap.live.erase i } (upd mem (.heap i) none) :=
  { h with
    sbA := h.sbA.upd (h.Bh _ (by omega)) (by have := h.bt; simp; omega)
    bufA := h.bufA.upd (by simp) (by simp; omega)
    ex := fun j => by rw [upd_ne _ _ (by simp)]; exact h.ex j
    hp := fun j hj => by
      by_cases hj' : j = i
      · subst hj'
        rw [upd_same]; rfl
      · rw [upd_ne _ _ (by simpa using hj'), h.hp j hj]
        simp [segAt, hj']
    old := fun x h1 h2 h3 h4 => by rw [upd_ne _ _ (h4 _ (by omega))]; exact h.old x h1 h2 h3 h4
    tick := h.tick
    live := (List.mem_erase_of_ne (by omega)).mpr h.live
    sgt := fun i l e => by cases e }

/-- Objects of the caller. -/
structure Base (base m0 : Blk → Option (List Val)) (k t0 : Nat) (B : Blk) (bid : Nat) : Prop where
  over : Over base m0
  B : base B = none
  bid : base (.heap bid) = none
  stk : ∀ j, k ≤ j → base (.stack j) = none
  hp : ∀ j, t0 ≤ j → base (.heap j) = none

theorem HP.over {base : Blk → Option (List Val)} (h : HP m0 k t0 B bid sg sb buf ex heap mem) (hb : Base base m0 k t0 B bid) : Over base mem := by
  intro b l hl
  rw [h.old b]
  · exact hb.over b l hl
  · rintro rfl; rw [hb.B] at hl; cases hl
  · rintro rfl; rw [hb.bid] at hl; cases hl
  · rintro j hj rfl; rw [hb.stk j hj] at hl; cases hl
  · rintro j hj rfl; rw [hb.hp j hj] at hl; cases hl

end

end L8w8jwt.C
