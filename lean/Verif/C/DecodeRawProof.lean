import Verif.C.DecodeProof
/-!
# The text of l8w8jwt_decode_raw and l8w8jwt_decode_raw_no_validation

src/decode.c:860-1045.
-/

namespace L8w8jwt.C
open L8w8jwt L8w8jwt.C.Src

/-- The three buffers are handed out or freed. -/
def dGives (u v : Nat) (R : Stmt) : Stmt :=
  .seq (dGive u (u + 1) v (v + 1)) (.seq (dGive (u + 2) (u + 3) (v + 2) (v + 3)) (.seq (dGive (u + 4) (u + 5) (v + 4) (v + 5)) R))

/-- What that does to memory. -/
structure Given (A1 L1 A2 L2 A3 L3 : Option Blk) (mem g : Blk → Option (List Val)) (r : Segs) (o1 o2 o3 : Option (Ptr × Nat)) : Prop where
  other : ∀ x, some x ∉ [A1, L1, A2, L2, A3, L3] → (∀ b, (r.header = some b ∨ r.payload = some b ∨ r.signature = some b) → x ≠ .heap b.id) → g x = mem x
  empty : ∀ x, some x ∉ [A1, L1, A2, L2, A3, L3] → mem x = none → g x = none
  w1 : Wrote mem g A1 (o1.map fun o => ptrVal o.1)
  n1 : Wrote mem g L1 (o1.map fun o => .int o.2)
  w2 : Wrote mem g A2 (o2.map fun o => ptrVal o.1)
  n2 : Wrote mem g L2 (o2.map fun o => .int o.2)
  w3 : Wrote mem g A3 (o3.map fun o => ptrVal o.1)
  n3 : Wrote mem g L3 (o3.map fun o => .int o.2)
  bytes : ∀ p n, (o1 = some (p, n) ∨ o2 = some (p, n) ∨ o3 = some (p, n)) → ∀ b, p = some b →
    (r.header = some b ∨ r.payload = some b ∨ r.signature = some b) ∧ g (.heap b.id) = some (cells b.mem)

theorem giveOrFree_inv {O : Option Blk} {P : Ptr} {N : Nat} {s : Sched} {h h' : Heap} {r : Option (Ptr × Nat)}
    (hr : giveOrFree O.isNone P N s h = .ok (r, h')) : (O = none → r = none) ∧ (O ≠ none → r = some (P, N)) ∧ h'.tick = h.tick := by
  unfold giveOrFree at hr
  cases O with
  | none =>
    obtain ⟨⟨⟩, g, hf, hr2⟩ := M.bind_inv hr
    cases hr2
    exact ⟨fun _ => rfl, fun h => absurd rfl h, (free_ok hf).2.1⟩
  | some b =>
    cases hr
    exact ⟨fun h => (by cases h), fun _ => rfl, rfl⟩

theorem gmem_none (mem : Blk → Option (List Val)) (o l : Option Blk) (p : Ptr) (n : Nat) {x : Blk} (h1 : o ≠ some x) (h2 : l ≠ some x)
    (h : mem x = none) : gmem mem o l p n x = none := by
  cases o with
  | none => exact fmem_none _ _ h
  | some b => rw [gmem_ne _ _ _ _ _ h1 h2 (fun e => by cases e)]; exact h

/-- One buffer: what the two cells contain afterwards. -/
theorem gmem_wrote {mem : Blk → Option (List Val)} {o l : Option Blk} {p : Ptr} {n : Nat} {r : Option (Ptr × Nat)} (h0 : o = none → r = none)
    (h1 : o ≠ none → r = some (p, n)) (hl : o ≠ none → l ≠ none) (hd : ∀ b, o = some b → l ≠ some b) (hp : ∀ b, p = some b → l ≠ some (.heap b.id)) :
    Wrote mem (gmem mem o l p n) o (r.map fun o => ptrVal o.1) ∧ Wrote mem (gmem mem o l p n) l (r.map fun o => .int o.2) := by
  cases o with
  | none =>
    rw [h0 rfl]
    refine ⟨fun b e => (by cases e), fun b e => ?_⟩
    exact fmem_ne _ _ fun c hc e2 => hp c hc (by rw [e, e2])
  | some a =>
    rw [h1 (by simp)]
    cases l with
    | none => exact absurd rfl (hl (by simp))
    | some c =>
      have hca : a ≠ c := fun e => hd a rfl (by rw [e])
      refine ⟨fun b e => ?_, fun b e => ?_⟩ <;> cases e <;> simp only [gmem, Option.getD_some, Option.map_some]
      · rw [upd_ne _ _ hca, upd_same]
      · rw [upd_same]

theorem wp_dGives (env : Env) (fuel d : Nat) {s : Sched} {fr : List Val} {heap h1 h2 h3 : Heap} {mem : Blk → Option (List Val)} {stk u v i : Nat} {R : Stmt}
    {A1 L1 A2 L2 A3 L3 : Option Blk}
    (fa1 : fr.getD u .undef = optV A1) (fl1 : fr.getD (u + 1) .undef = optV L1) (fa2 : fr.getD (u + 2) .undef = optV A2)
    (fl2 : fr.getD (u + 3) .undef = optV L2) (fa3 : fr.getD (u + 4) .undef = optV A3) (fl3 : fr.getD (u + 5) .undef = optV L3)
    (f1 : fr.getD v .undef = .ptr (some (.stack i, 0))) (f2 : fr.getD (v + 1) .undef = .ptr (some (.stack (i + 1), 0)))
    (f3 : fr.getD (v + 2) .undef = .ptr (some (.stack (i + 2), 0))) (f4 : fr.getD (v + 3) .undef = .ptr (some (.stack (i + 3), 0)))
    (f5 : fr.getD (v + 4) .undef = .ptr (some (.stack (i + 4), 0))) (f6 : fr.getD (v + 5) .undef = .ptr (some (.stack (i + 5), 0)))
    {r : Segs} (hS : SegsAt mem i r) (lens : r.headerLength < 18446744073709551616 ∧ r.payloadLength < 18446744073709551616 ∧ r.signatureLength < 18446744073709551616)
    (hp : ∀ a b, r.header = some a → r.payload = some b → a.id ≠ b.id) (hs : ∀ a b, r.header = some a → r.signature = some b → a.id ≠ b.id)
    (ps : ∀ a b, r.payload = some a → r.signature = some b → a.id ≠ b.id)
    (hO : OutsAt mem [A1, L1, A2, L2, A3, L3])
    (new : ∀ x, some x ∈ [A1, L1, A2, L2, A3, L3] → (∀ j, i ≤ j → x ≠ .stack j) ∧
      ∀ b, (r.header = some b ∨ r.payload = some b ∨ r.signature = some b) → x ≠ .heap b.id)
    (hl1 : A1 ≠ none → L1 ≠ none) (hl2 : A2 ≠ none → L2 ≠ none) (hl3 : A3 ≠ none → L3 ≠ none)
    (hs0 : ∀ j, stk ≤ j → mem (.stack j) = none) {o1 o2 o3 : Option (Ptr × Nat)}
    (hr1 : giveOrFree A1.isNone r.header r.headerLength s heap = .ok (o1, h1)) (hr2 : giveOrFree A2.isNone r.payload r.payloadLength s h1 = .ok (o2, h2))
    (hr3 : giveOrFree A3.isNone r.signature r.signatureLength s h2 = .ok (o3, h3)) {Q : Ctl → St → Prop}
    (hq : ∀ g, Given A1 L1 A2 L2 A3 L3 mem g r o1 o2 o3 → WP (exec (cx env fuel (d + 1)) R .run) s ⟨fr, h3, g, stk⟩ Q) :
    WP (exec (cx env fuel (d + 1)) (dGives u v R) .run) s ⟨fr, heap, mem, stk⟩ Q := by
  have D := hO.diff
  obtain ⟨D1, D⟩ := List.pairwise_cons.mp D
  obtain ⟨D2, D⟩ := List.pairwise_cons.mp D
  obtain ⟨D3, D⟩ := List.pairwise_cons.mp D
  obtain ⟨D4, D⟩ := List.pairwise_cons.mp D
  obtain ⟨D5, D⟩ := List.pairwise_cons.mp D
  obtain ⟨i1, j1, t1⟩ := giveOrFree_inv hr1
  obtain ⟨i2, j2, t2⟩ := giveOrFree_inv hr2
  obtain ⟨i3, j3, t3⟩ := giveOrFree_inv hr3
  have stk1 : ∀ (m : Blk → Option (List Val)) (A L : Option Blk) (P : Ptr) (N j : Nat), A ∈ [A1, L1, A2, L2, A3, L3] → L ∈ [A1, L1, A2, L2, A3, L3] → i ≤ j →
      gmem m A L P N (.stack j) = m (.stack j) := fun m A L P N j hA hL hj =>
    gmem_ne _ _ _ _ _ (fun e => (new _ (e ▸ hA)).1 j hj rfl) (fun e => (new _ (e ▸ hL)).1 j hj rfl) (fun _ b _ => by simp)
  -- an out pointer is not touched when another buffer is handed out
  have out1 : ∀ (m : Blk → Option (List Val)) (A L : Option Blk) (P : Ptr) (N : Nat) (x : Blk), some x ∈ [A1, L1, A2, L2, A3, L3] → A ≠ some x → L ≠ some x →
      (∀ b, P = some b → (r.header = some b ∨ r.payload = some b ∨ r.signature = some b)) → gmem m A L P N x = m x := fun m A L P N x hx h1 h2 h3 =>
    gmem_ne _ _ _ _ _ h1 h2 (fun _ b hb => (new x hx).2 b (h3 b hb))
  have hst : ∀ (m : Blk → Option (List Val)) (A L : Option Blk) (P : Ptr) (N : Nat), A ∈ [A1, L1, A2, L2, A3, L3] → L ∈ [A1, L1, A2, L2, A3, L3] →
      (∀ j, stk ≤ j → m (.stack j) = none) → (∀ x, some x ∈ [A1, L1, A2, L2, A3, L3] → ∃ y, mem x = some [y]) → ∀ j, stk ≤ j → gmem m A L P N (.stack j) = none :=
    fun m A L P N hA hL hm hc j hj => gmem_none _ _ _ _ _ (fun e => by obtain ⟨y, hy⟩ := hc _ (e ▸ hA); rw [hs0 j hj] at hy; cases hy)
      (fun e => by obtain ⟨y, hy⟩ := hc _ (e ▸ hL); rw [hs0 j hj] at hy; cases hy) (hm j hj)
  have cells1 : ∀ x, some x ∈ [A1, L1, A2, L2, A3, L3] → ∃ y, mem x = some [y] := fun x hx => (hO.cell x hx).2
  obtain ⟨g1, hg1⟩ : ∃ g1, g1 = gmem mem A1 L1 r.header r.headerLength := ⟨_, rfl⟩
  obtain ⟨g2, hg2⟩ : ∃ g2, g2 = gmem g1 A2 L2 r.payload r.payloadLength := ⟨_, rfl⟩
  obtain ⟨g3, hg3⟩ : ∃ g3, g3 = gmem g2 A3 L3 r.signature r.signatureLength := ⟨_, rfl⟩
  have s1 : ∀ j, i ≤ j → g1 (.stack j) = mem (.stack j) := fun j hj => by rw [hg1]; exact stk1 _ _ _ _ _ _ (by simp) (by simp) hj
  have s2 : ∀ j, i ≤ j → g2 (.stack j) = mem (.stack j) := fun j hj => by rw [hg2, stk1 _ _ _ _ _ _ (by simp) (by simp) hj, s1 j hj]
  have z1 : ∀ j, stk ≤ j → g1 (.stack j) = none := by rw [hg1]; exact hst _ _ _ _ _ (by simp) (by simp) hs0 cells1
  have z2 : ∀ j, stk ≤ j → g2 (.stack j) = none := by rw [hg2]; exact hst _ _ _ _ _ (by simp) (by simp) z1 cells1
  have p1 : ∀ x, some x ∈ [A1, L1, A2, L2, A3, L3] → A1 ≠ some x → L1 ≠ some x → g1 x = mem x := fun x hx a b => by
    rw [hg1]; exact out1 _ _ _ _ _ x hx a b (fun c hc => by simp [hc])
  have p2 : ∀ x, some x ∈ [A1, L1, A2, L2, A3, L3] → A2 ≠ some x → L2 ≠ some x → g2 x = g1 x := fun x hx a b => by
    rw [hg2]; exact out1 _ _ _ _ _ x hx a b (fun c hc => by simp [hc])
  have p3 : ∀ x, some x ∈ [A1, L1, A2, L2, A3, L3] → A3 ≠ some x → L3 ≠ some x → g3 x = g2 x := fun x hx a b => by
    rw [hg3]; exact out1 _ _ _ _ _ x hx a b (fun c hc => by simp [hc])
  have q1 := gmem_wrote (mem := mem) i1 j1 hl1 (D1 L1 (by simp)) (fun b hb e => (new _ (e ▸ by simp)).2 b (by simp [hb]) rfl)
  have q2 := gmem_wrote (mem := g1) i2 j2 hl2 (D3 L2 (by simp)) (fun b hb e => (new _ (e ▸ by simp)).2 b (by simp [hb]) rfl)
  have q3 := gmem_wrote (mem := g2) i3 j3 hl3 (D5 L3 (by simp)) (fun b hb e => (new _ (e ▸ by simp)).2 b (by simp [hb]) rfl)
  rw [← hg1] at q1
  rw [← hg2] at q2
  rw [← hg3] at q3
  have x12 : ∀ x, A2 = some x ∨ L2 = some x ∨ A3 = some x ∨ L3 = some x → A1 ≠ some x ∧ L1 ≠ some x := fun x hx =>
    ⟨fun e => by rcases hx with h | h | h | h <;> exact D1 _ (by simp) x e h, fun e => by rcases hx with h | h | h | h <;> exact D2 _ (by simp) x e h⟩
  have x23 : ∀ x, A3 = some x ∨ L3 = some x → A2 ≠ some x ∧ L2 ≠ some x := fun x hx =>
    ⟨fun e => by rcases hx with h | h <;> exact D3 _ (by simp) x e h, fun e => by rcases hx with h | h <;> exact D4 _ (by simp) x e h⟩
  have x21 : ∀ x, A1 = some x ∨ L1 = some x → A2 ≠ some x ∧ L2 ≠ some x ∧ A3 ≠ some x ∧ L3 ≠ some x := fun x hx => by
    refine ⟨fun e => ?_, fun e => ?_, fun e => ?_, fun e => ?_⟩ <;>
      · have := x12 x (by simp [e])
        rcases hx with h | h
        · exact this.1 h
        · exact this.2 h
  have x32 : ∀ x, A2 = some x ∨ L2 = some x → A3 ≠ some x ∧ L3 ≠ some x := fun x hx => by
    refine ⟨fun e => ?_, fun e => ?_⟩ <;>
      · have := x23 x (by simp [e])
        rcases hx with h | h
        · exact this.1 h
        · exact this.2 h
  have ne1 : ∀ x, some x ∈ [A1, L1, A2, L2, A3, L3] → ∀ j, i ≤ j → x ≠ .stack j := fun x hx => (new x hx).1
  unfold dGives
  xs []
  refine wp_dGive env fuel d (i := i) (O := A1) (L := L1) fa1 fl1 f1 f2 hS.s0 hS.s1 lens.1 ?_ ?_ hl1 hs0 hr1 ?_
  · intro b hb
    exact ⟨(hO.cell b (by simp [hb])).1, cells1 b (by simp [hb]), ne1 b (by simp [hb]) _ (by omega), D1 _ (by simp) b hb⟩
  · intro b hb
    exact ⟨(hO.cell b (by simp [hb])).1, cells1 b (by simp [hb]), ne1 b (by simp [hb]) _ (by omega)⟩
  rw [← hg1]
  xs []
  refine wp_dGive env fuel d (i := i + 2) (O := A2) (L := L2) fa2 fl2 f3 f4 ((s1 _ (by omega)).trans hS.s2) ((s1 _ (by omega)).trans hS.s3) lens.2.1 ?_ ?_ hl2 z1 hr2 ?_
  · intro b hb
    obtain ⟨y, hy⟩ := cells1 b (by simp [hb])
    exact ⟨(hO.cell b (by simp [hb])).1, ⟨y, (p1 b (by simp [hb]) (x12 b (by simp [hb])).1 (x12 b (by simp [hb])).2).trans hy⟩,
      ne1 b (by simp [hb]) _ (by omega), D3 _ (by simp) b hb⟩
  · intro b hb
    obtain ⟨y, hy⟩ := cells1 b (by simp [hb])
    exact ⟨(hO.cell b (by simp [hb])).1, ⟨y, (p1 b (by simp [hb]) (x12 b (by simp [hb])).1 (x12 b (by simp [hb])).2).trans hy⟩,
      ne1 b (by simp [hb]) _ (by omega)⟩
  rw [← hg2]
  xs []
  refine wp_dGive env fuel d (i := i + 4) (O := A3) (L := L3) fa3 fl3 f5 f6 ((s2 _ (by omega)).trans hS.s4) ((s2 _ (by omega)).trans hS.s5) lens.2.2 ?_ ?_ hl3 z2 hr3 ?_
  · intro b hb
    obtain ⟨y, hy⟩ := cells1 b (by simp [hb])
    exact ⟨(hO.cell b (by simp [hb])).1, ⟨y, (p2 b (by simp [hb]) (x23 b (by simp [hb])).1 (x23 b (by simp [hb])).2).trans
      ((p1 b (by simp [hb]) (x12 b (by simp [hb])).1 (x12 b (by simp [hb])).2).trans hy)⟩, ne1 b (by simp [hb]) _ (by omega), D5 _ (by simp) b hb⟩
  · intro b hb
    obtain ⟨y, hy⟩ := cells1 b (by simp [hb])
    exact ⟨(hO.cell b (by simp [hb])).1, ⟨y, (p2 b (by simp [hb]) (x23 b (by simp [hb])).1 (x23 b (by simp [hb])).2).trans
      ((p1 b (by simp [hb]) (x12 b (by simp [hb])).1 (x12 b (by simp [hb])).2).trans hy)⟩, ne1 b (by simp [hb]) _ (by omega)⟩
  rw [← hg3]
  xs []
  refine hq g3 {
    other := fun x hx hn => ?_
    empty := fun x hx hn => ?_
    w1 := fun b hb => ?_
    n1 := fun b hb => ?_
    w2 := fun b hb => ?_
    n2 := fun b hb => ?_
    w3 := fun b hb => ?_
    n3 := fun b hb => ?_
    bytes := fun p n hp b hb => ?_ }
  · simp only [List.mem_cons, not_or, List.not_mem_nil] at hx
    obtain ⟨a1, a2, a3, a4, a5, a6, -⟩ := hx
    rw [hg3, gmem_ne _ _ _ _ _ (Ne.symm a5) (Ne.symm a6) (fun _ b hb => hn b (by simp [hb])), hg2,
      gmem_ne _ _ _ _ _ (Ne.symm a3) (Ne.symm a4) (fun _ b hb => hn b (by simp [hb])), hg1,
      gmem_ne _ _ _ _ _ (Ne.symm a1) (Ne.symm a2) (fun _ b hb => hn b (by simp [hb]))]
  · simp only [List.mem_cons, not_or, List.not_mem_nil] at hx
    obtain ⟨a1, a2, a3, a4, a5, a6, -⟩ := hx
    rw [hg3, hg2, hg1]
    exact gmem_none _ _ _ _ _ (Ne.symm a5) (Ne.symm a6) (gmem_none _ _ _ _ _ (Ne.symm a3) (Ne.symm a4) (gmem_none _ _ _ _ _ (Ne.symm a1) (Ne.symm a2) hn))
  · have := x21 b (by simp [hb])
    rw [p3 b (by simp [hb]) this.2.2.1 this.2.2.2, p2 b (by simp [hb]) this.1 this.2.1]
    exact q1.1 b hb
  · have := x21 b (by simp [hb])
    rw [p3 b (by simp [hb]) this.2.2.1 this.2.2.2, p2 b (by simp [hb]) this.1 this.2.1]
    exact q1.2 b hb
  · have := x32 b (by simp [hb])
    have h1 := x12 b (by simp [hb])
    rw [p3 b (by simp [hb]) this.1 this.2, q2.1 b hb, p1 b (by simp [hb]) h1.1 h1.2]
  · have := x32 b (by simp [hb])
    have h1 := x12 b (by simp [hb])
    rw [p3 b (by simp [hb]) this.1 this.2, q2.2 b hb, p1 b (by simp [hb]) h1.1 h1.2]
  · have := x23 b (by simp [hb])
    have h1 := x12 b (by simp [hb])
    rw [q3.1 b hb, p2 b (by simp [hb]) this.1 this.2, p1 b (by simp [hb]) h1.1 h1.2]
  · have := x23 b (by simp [hb])
    have h1 := x12 b (by simp [hb])
    rw [q3.2 b hb, p2 b (by simp [hb]) this.1 this.2, p1 b (by simp [hb]) h1.1 h1.2]
  · have nw : ∀ e, (r.header = some e ∨ r.payload = some e ∨ r.signature = some e) → ∀ O, O ∈ [A1, L1, A2, L2, A3, L3] → O ≠ some (.heap e.id) :=
      fun e he O hO2 h => (new _ (h ▸ hO2)).2 e he rfl
    rcases hp with e | e | e
    · have hA : A1 ≠ none := fun h => by rw [i1 h] at e; cases e
      rw [j1 hA] at e
      cases e
      have hm := nw b (Or.inl hb)
      refine ⟨Or.inl hb, ?_⟩
      rw [hg3, gmem_ne _ _ _ _ _ (hm _ (by simp)) (hm _ (by simp)) (fun _ c hc => by have := hs b c hb hc; simp; omega), hg2,
        gmem_ne _ _ _ _ _ (hm _ (by simp)) (hm _ (by simp)) (fun _ c hc => by have := hp b c hb hc; simp; omega), hg1,
        gmem_ne _ _ _ _ _ (hm _ (by simp)) (hm _ (by simp)) (fun h => absurd h hA)]
      exact hS.hb b hb
    · have hA : A2 ≠ none := fun h => by rw [i2 h] at e; cases e
      rw [j2 hA] at e
      cases e
      have hm := nw b (Or.inr (Or.inl hb))
      refine ⟨Or.inr (Or.inl hb), ?_⟩
      rw [hg3, gmem_ne _ _ _ _ _ (hm _ (by simp)) (hm _ (by simp)) (fun _ c hc => by have := ps b c hb hc; simp; omega), hg2,
        gmem_ne _ _ _ _ _ (hm _ (by simp)) (hm _ (by simp)) (fun h => absurd h hA), hg1,
        gmem_ne _ _ _ _ _ (hm _ (by simp)) (hm _ (by simp)) (fun _ c hc => by have := hp c b hc hb; simp; omega)]
      exact hS.pb b hb
    · have hA : A3 ≠ none := fun h => by rw [i3 h] at e; cases e
      rw [j3 hA] at e
      cases e
      have hm := nw b (Or.inr (Or.inr hb))
      refine ⟨Or.inr (Or.inr hb), ?_⟩
      rw [hg3, gmem_ne _ _ _ _ _ (hm _ (by simp)) (hm _ (by simp)) (fun h => absurd h hA), hg2,
        gmem_ne _ _ _ _ _ (hm _ (by simp)) (hm _ (by simp)) (fun _ c hc => by have := ps c b hc hb; simp; omega), hg1,
        gmem_ne _ _ _ _ _ (hm _ (by simp)) (hm _ (by simp)) (fun _ c hc => by have := hs c b hc hb; simp; omega)]
      exact hS.sb b hb

/-- The condition `e` is `b` and has no effect. -/
def Cond (c : Ctx) (s : Sched) (st : St) (e : Expr) (b : Bool) : Prop := ∀ Q : Val → St → Prop, Q (.ofBool b) st → WP (eval c e) s st Q

theorem lift_ofBool (b : Bool) (Q : Bool → Prop) (h : Q b) : Lift (Val.ofBool b).truth Q :=
  ⟨b, by cases b <;> rfl, h⟩

section
variable {c : Ctx} {s : Sched} {st : St}

theorem Cond.isNull {i : Nat} {o : Option (Blk × Int)} (h : st.fr.getD i .undef = .ptr o) : Cond c s st (.cmp .eq (.loc i) .null) o.isNone := by
  intro Q hQ
  rw [wp_cmp, wp_loc, wp_null, h]
  refine ⟨_, rfl, ?_⟩
  cases o <;> exact hQ

theorem Cond.notNull {i : Nat} {o : Option (Blk × Int)} (h : st.fr.getD i .undef = .ptr o) : Cond c s st (.cmp .ne (.loc i) .null) !o.isNone := by
  intro Q hQ
  rw [wp_cmp, wp_loc, wp_null, h]
  refine ⟨_, rfl, ?_⟩
  cases o <;> exact hQ

theorem Cond.lor {e f : Expr} {a b : Bool} (h1 : Cond c s st e a) (h2 : Cond c s st f b) : Cond c s st (.lor e f) (a || b) := by
  intro Q hQ
  rw [wp_lor]
  refine h1 _ (lift_ofBool _ _ ⟨fun h => ?_, fun h => h2 _ (lift_ofBool _ _ ?_)⟩)
  · subst h
    exact hQ
  · simp only [Bool.not_eq_true] at h
    subst h
    exact hQ

theorem Cond.land {e f : Expr} {a b : Bool} (h1 : Cond c s st e a) (h2 : Cond c s st f b) : Cond c s st (.land e f) (a && b) := by
  intro Q hQ
  rw [wp_land]
  refine h1 _ (lift_ofBool _ _ ⟨fun h => h2 _ (lift_ofBool _ _ ?_), fun h => ?_⟩)
  · subst h
    exact hQ
  · simp only [Bool.not_eq_true] at h
    subst h
    exact hQ

/-- `if (e) return n;` -/
theorem Cond.guard {e : Expr} {b : Bool} {n : Int} {R : Stmt} {Q : Ctl → St → Prop} (h : Cond c s st e b) (h1 : b = true → Q (.ret (.int n)) st)
    (h2 : b = false → WP (exec c R .run) s st Q) : WP (exec c (.seq (.ite e (.ret (.num n)) .skip) R) .run) s st Q := by
  rw [wp_seq, wp_if]
  refine h _ (lift_ofBool _ _ ⟨fun hb => ?_, fun hb => ?_⟩)
  · rw [wp_ret, wp_num]
    exact h1 hb
  · rw [wp_skip]
    exact h2 (by simpa using hb)

end

theorem optV_isNone (o : Option Blk) : (o.map fun b => (b, (0 : Int))).isNone = o.isNone := by cases o <;> rfl

/-- src/decode.c:935-969. -/
def rEnd : Stmt :=
  .seq (.exp (.store (.int .u32) (.loc 1) (.load (.int .u32) (.loc 8))))
  (.seq (.label "exit") (dGives 2 10 (.seq (dFreeClaims 16) (.ret (.loc 9)))))

/-- src/decode.c:888-934. -/
def rMain : Stmt := dVars 10 (.seq (.declMem 16 5 [] .undef) (dCore 8 rEnd))

/-- src/decode.c:876-934. -/
def rChecked : Stmt :=
  .seq (.exp (.set 9 (.call "l8w8jwt_validate_decoding_params" (.cons (.loc 0) .nil))))
    (.seq (.ite (.cmp .ne (.loc 9) (.num 0)) (.ret (.loc 9)) .skip) (.seq (.exp (.store (.int .u32) (.loc 1) (.cast .u32 (.num (-1))))) rMain))

/-- src/decode.c:875-934. -/
def rRest : Stmt := .seq (.declMem 8 1 [] .undef) (.seq (.exp (.store (.int .u32) (.loc 8) (.num 0))) rChecked)

/-- An out pointer without its length. -/
def eBad (a l : Nat) : Expr := .land (.cmp .ne (.loc a) .null) (.cmp .eq (.loc l) .null)

/-- src/decode.c:860-970 in pieces. -/
theorem raw_body : l8w8jwt_decode_raw.body =
    .seq (.ite (.lor (.lor (.lor (.lor (.cmp .eq (.loc 0) .null) (.cmp .eq (.loc 1) .null)) (eBad 2 3)) (eBad 4 5)) (eBad 6 7)) (.ret (.num 100)) .skip) rRest := rfl

/-- What the raw functions leave behind. -/
structure RawDone (st : St) (os : List (Option Blk)) (A1 L1 A2 L2 A3 L3 : Option Blk) (out : RawOut) (h' : Heap) (mem' : Blk → Option (List Val)) : Prop where
  kept : Kept os st h' mem'
  header : Wrote st.mem mem' A1 (out.header.map fun o => ptrVal o.1)
  headerLength : Wrote st.mem mem' L1 (out.header.map fun o => .int o.2)
  payload : Wrote st.mem mem' A2 (out.payload.map fun o => ptrVal o.1)
  payloadLength : Wrote st.mem mem' L2 (out.payload.map fun o => .int o.2)
  signature : Wrote st.mem mem' A3 (out.signature.map fun o => ptrVal o.1)
  signatureLength : Wrote st.mem mem' L3 (out.signature.map fun o => .int o.2)
  bytes : ∀ p n, (out.header = some (p, n) ∨ out.payload = some (p, n) ∨ out.signature = some (p, n)) → ∀ b, p = some b →
    mem' (.heap b.id) = some (cells b.mem)

/-- The arguments that are NULL. -/
def rawArgs (A1 L1 A2 L2 A3 L3 : Option Blk) : RawArgs := ⟨A1.isNone, L1.isNone, A2.isNone, L2.isNone, A3.isNone, L3.isNone⟩

theorem RawDone.nothing {st : St} (hw : Wf st) (hh : HeapWf st.heap) (os : List (Option Blk)) (A1 L1 A2 L2 A3 L3 : Option Blk) (rc : Nat) :
    RawDone st os A1 L1 A2 L2 A3 L3 { rc := rc } st.heap st.mem where
  kept := Kept.refl hw hh
  header := Wrote.nothing _ _
  headerLength := Wrote.nothing _ _
  payload := Wrote.nothing _ _
  payloadLength := Wrote.nothing _ _
  signature := Wrote.nothing _ _
  signatureLength := Wrote.nothing _ _
  bytes := fun p n h => by simp at h

theorem wp_decode_raw (env : Env) (fuel d : Nat)
    (hg : ∀ i, -2147483648 ≤ (env.garbage i).end_ ∧ (env.garbage i).end_ < 2147483648) {s : Sched} {st : St} (hw : Wf st) (hh : HeapWf st.heap)
    {params : Option DecParams} {pv : Val} {O1 A1 L1 A2 L2 A3 L3 : Option Blk} (hO : OutsAt st.mem [O1, A1, L1, A2, L2, A3, L3])
    (hp : ParamsAt st.mem [O1, A1, L1, A2, L2, A3, L3] pv params)
    (hz : ∀ q m, params = some q → q.jwt = some m → 2 * m.length + 100 < fuel ∧ m.length + 16 < 2147483648 ∧ q.validateTypLength < fuel)
    {out : RawOut} {h' : Heap} (hr : decodeRaw env params O1.isNone (rawArgs A1 L1 A2 L2 A3 L3) s st.heap = .ok (out, h')) :
    WP (runFun (cx env fuel (d + 3)) l8w8jwt_decode_raw [pv, optV O1, optV A1, optV L1, optV A2, optV L2, optV A3, optV L3]) s st fun v st' =>
      v = .int out.rc ∧ ∃ mem', st' = { st with heap := h', mem := mem' } ∧ Wrote st.mem mem' O1 (out.validation.map fun v => .int v.toNat) ∧
        RawDone st [O1, A1, L1, A2, L2, A3, L3] A1 L1 A2 L2 A3 L3 out h' mem' := by
  apply wp_runFun
  rw [raw_body]
  rw [show l8w8jwt_decode_raw.slots - l8w8jwt_decode_raw.params = 9 from rfl]
  simp only [List.replicate, List.cons_append, List.nil_append]
  obtain ⟨Qf, hQf⟩ : ∃ Qf : Val → St → Prop, Qf = fun v st' =>
    v = .int out.rc ∧ ∃ mem', st' = { st with heap := h', mem := mem' } ∧ Wrote st.mem mem' O1 (out.validation.map fun v => .int v.toNat) ∧
        RawDone st [O1, A1, L1, A2, L2, A3, L3] A1 L1 A2 L2 A3 L3 out h' mem' := ⟨_, rfl⟩
  simp only [← hQf]
  have early : ∀ rc, out = { rc := rc } → h' = st.heap → Qf (.int rc) st := by
    rintro rc rfl rfl
    rw [hQf]
    exact ⟨rfl, st.mem, rfl, Wrote.nothing _ _, RawDone.nothing hw hh _ _ _ _ _ _ _ _⟩
  obtain ⟨pp, hpp, hpn⟩ : ∃ pp, pv = .ptr pp ∧ pp.isNone = params.isNone := by
    cases params with
    | none => exact ⟨none, hp, rfl⟩
    | some q => obtain ⟨P, w, h, -⟩ := hp; exact ⟨_, h, rfl⟩
  refine Cond.guard (((((Cond.isNull (o := pp) ?_).lor (Cond.isNull (o := O1.map fun b => (b, 0)) rfl)).lor
    ((Cond.notNull (o := A1.map fun b => (b, 0)) rfl).land (Cond.isNull (o := L1.map fun b => (b, 0)) rfl))).lor
    ((Cond.notNull (o := A2.map fun b => (b, 0)) rfl).land (Cond.isNull (o := L2.map fun b => (b, 0)) rfl))).lor
    ((Cond.notNull (o := A3.map fun b => (b, 0)) rfl).land (Cond.isNull (o := L3.map fun b => (b, 0)) rfl))) ?_ ?_
  · exact hpp
  · intro hb
    simp only [optV_isNone, hpn] at hb
    unfold decodeRaw at hr
    cases params with
    | none =>
      cases hr
      xs [dropStack_wf hw]
      exact early _ rfl rfl
    | some q =>
      simp only at hr
      rw [if_pos (by simpa [rawArgs, RawArgs.bad, or_assoc] using hb)] at hr
      cases hr
      xs [dropStack_wf hw]
      exact early _ rfl rfl
  intro hb
  simp only [optV_isNone, hpn] at hb
  cases params with
  | none => simp at hb
  | some q =>
  obtain ⟨P, w, rfl, hd, hu⟩ := hp
  unfold decodeRaw at hr
  simp only at hr
  have hbad : (O1.isNone || (rawArgs A1 L1 A2 L2 A3 L3).bad) = false := by simpa [rawArgs, RawArgs.bad, and_assoc] using hb
  rw [hbad] at hr
  simp only [Bool.false_eq_true, if_false] at hr
  simp only [Option.isNone_some, Bool.false_or, Bool.or_eq_false_iff] at hb
  obtain ⟨⟨⟨hbO, hb1⟩, hb2⟩, hb3⟩ := hb
  have hl1 : A1 ≠ none → L1 ≠ none := by cases A1 <;> cases L1 <;> simp at hb1 ⊢
  have hl2 : A2 ≠ none → L2 ≠ none := by cases A2 <;> cases L2 <;> simp at hb2 ⊢
  have hl3 : A3 ≠ none → L3 ≠ none := by cases A3 <;> cases L3 <;> simp at hb3 ⊢
  unfold rRest
  refine wp_declZero (Or.inr rfl) (by simp) ?_
  unfold rChecked
  xs []
  have old := OutsAt.old hw hO
  have uold := ParamsAt.old hw hd
  refine wp_validate_params env fuel (d + 2) (fun j hj => ?_) (hd.frame (mem' := upd st.mem (.stack st.stk) (some [.int 0])) fun b hb => upd_ne _ _ ((uold b hb).1 _ (Nat.le_refl _))) ?_
  · have hj : st.stk + 1 ≤ j := hj
    exact (upd_ne _ _ (by simp; omega)).trans (hw.stack j (by omega))
  by_cases hv : validateDecodingParams env (some q) = 0
  case neg =>
    rw [if_pos (by simpa [L8W8JWT_SUCCESS] using hv)] at hr
    cases hr
    have hv' : ¬ (validateDecodingParams env (some q) : Int) = 0 := by omega
    xs [hv', dropStack_stack, dropStack_wf hw]
    exact early _ rfl rfl
  rw [if_neg (by simpa [L8W8JWT_SUCCESS] using hv)] at hr
  rw [hv]
  cases O1 with
  | none => cases hbO
  | some o1 =>
  obtain ⟨⟨own1, x1, c1⟩, hO1⟩ := And.intro (hO.cell o1 (by simp)) (old o1 (by simp))
  xs [optV, Option.map_some]
  refine wp_storeV own1 (l := [x1]) (w := .int 4294967295) (by exact (upd_ne _ _ (hO1.1 _ (Nat.le_refl _))).trans c1) (by omega) (by simp) (by rfl) ?_
  xs []
  unfold rMain
  refine wp_dVars (by simp) ?_
  xs []
  obtain ⟨m0, hm0⟩ : ∃ m0, m0 = upd (vmem (upd (upd st.mem (.stack st.stk) (some [.int 0])) o1 (some [.int 4294967295])) (st.stk + 1)) (.stack (st.stk + 7))
    (some [.undef, .undef, .undef, .undef, .undef]) := ⟨_, rfl⟩
  show WP _ s ⟨[.ptr (some (P, 0)), optV (some o1), optV A1, optV L1, optV A2, optV L2, optV A3, optV L3, .ptr (some (.stack st.stk, 0)), .int 0, .ptr (some (.stack (st.stk + 1), 0)),
    .ptr (some (.stack (st.stk + 2), 0)), .ptr (some (.stack (st.stk + 3), 0)), .ptr (some (.stack (st.stk + 4), 0)), .ptr (some (.stack (st.stk + 5), 0)),
    .ptr (some (.stack (st.stk + 6), 0)), .ptr (some (.stack (st.stk + 7), 0))], st.heap, upd (vmem (upd (upd st.mem (.stack st.stk) (some [.int 0])) o1
      (some [.int 4294967295])) (st.stk + 1)) (.stack (st.stk + 7)) (some [.undef, .undef, .undef, .undef, .undef]), st.stk + 8⟩ _
  rw [← hm0]
  have n1 : ∀ j, st.stk ≤ j → Blk.stack j ≠ o1 := fun j hj => Ne.symm (hO1.1 j hj)
  have M : ∀ x, (∀ j, st.stk ≤ j → j < st.stk + 8 → x ≠ .stack j) → x ≠ o1 → m0 x = st.mem x := fun x hx ho => by
    rw [hm0, upd_ne _ _ (hx _ (by omega) (by omega)), vmem_other _ _ (fun j h1 h2 => hx j (by omega) (by omega)), upd_ne _ _ ho, upd_ne _ _ (hx _ (by omega) (by omega))]
  have Mo : m0 o1 = some [.int 4294967295] := by
    rw [hm0, upd_ne _ _ (hO1.1 _ (by omega)), vmem_other _ _ (fun j h1 h2 => hO1.1 j (by omega)), upd_same]
  cases hjw : q.jwt with
  | none => simp [validateDecodingParams, hjw] at hv
  | some jm =>
  obtain ⟨z1, z2, z3⟩ := hz q jm rfl hjw
  obtain ⟨D, h1, hb, hr2⟩ := L8w8jwt.C.M.bind_inv hr
  obtain ⟨p1, g1, hg1, hr3⟩ := L8w8jwt.C.M.bind_inv hr2
  obtain ⟨p2, g2, hg2, hr4⟩ := L8w8jwt.C.M.bind_inv hr3
  obtain ⟨p3, g3, hg3, hr5⟩ := L8w8jwt.C.M.bind_inv hr4
  obtain ⟨⟨⟩, g4, hfc, hr6⟩ := L8w8jwt.C.M.bind_inv hr5
  cases hr6
  replace hb : decodeBody env q s st.heap = .ok (D, h1) := hb
  have hT := tidy_decodeBody _ _ _ _ _ _ hb hh
  have w1 := tidy_giveOrFree _ _ _ _ _ _ _ hg1 hT.1
  have w2 := tidy_giveOrFree _ _ _ _ _ _ _ hg2 w1.1
  have w3 := tidy_giveOrFree _ _ _ _ _ _ _ hg3 w2.1
  have w4 := tidy_freeClaims _ _ _ _ _ _ hfc w3.1
  have tk : g3.tick = h1.tick := by rw [(giveOrFree_inv hg3).2.2, (giveOrFree_inv hg2).2.2, (giveOrFree_inv hg1).2.2]
  obtain ⟨dO, dA⟩ := List.pairwise_cons.mp hO.diff
  have dO1 : ∀ b, some b ∈ [A1, L1, A2, L2, A3, L3] → b ≠ o1 := fun b hb e => dO _ hb o1 rfl (by rw [e])
  -- behind `exit:`
  have tail : ∀ (mB mem' : Blk → Option (List Val)) (rv : Int), rv = D.rc → AtExit mB st.heap.tick st.stk (2 * (jm.length + 16)) D h1 mem' →
      (∀ x, (∀ j, st.stk ≤ j → x ≠ .stack j) → x ≠ o1 → mB x = st.mem x) → mB o1 = some [.int D.validation.toNat] →
      WP (exec (cx env fuel (d + 3)) (dGives 2 10 (.seq (dFreeClaims 16) (.ret (.loc 9)))) .run) s
        ⟨[.ptr (some (P, 0)), optV (some o1), optV A1, optV L1, optV A2, optV L2, optV A3, optV L3, .ptr (some (.stack st.stk, 0)), .int rv, .ptr (some (.stack (st.stk + 1), 0)),
    .ptr (some (.stack (st.stk + 2), 0)), .ptr (some (.stack (st.stk + 3), 0)), .ptr (some (.stack (st.stk + 4), 0)), .ptr (some (.stack (st.stk + 5), 0)),
    .ptr (some (.stack (st.stk + 6), 0)), .ptr (some (.stack (st.stk + 7), 0))], h1, mem', st.stk + 8⟩ (Return st Qf) := by
    intro mB mem' rv hrv a hmB hmo
    have oc : ∀ b, some b ∈ [A1, L1, A2, L2, A3, L3] → mem' b = st.mem b := fun b hb => by
      have o := old b (List.mem_cons_of_mem _ hb)
      rw [a.frame b o.1 o.2, hmB b o.1 (dO1 b hb)]
    refine wp_dGives env fuel (d + 2) (i := st.stk + 1) (A1 := A1) (L1 := L1) (A2 := A2) (L2 := L2) (A3 := A3) (L3 := L3) rfl rfl rfl rfl rfl rfl rfl rfl rfl rfl rfl rfl a.segs a.lens
      a.hp a.hs a.ps ⟨fun b hb => ⟨(hO.cell b (List.mem_cons_of_mem _ hb)).1, ?_⟩, dA⟩ (fun x hx => ⟨fun j hj => (old x (List.mem_cons_of_mem _ hx)).1 j (by omega),
        fun b hb => (old x (List.mem_cons_of_mem _ hx)).2 _ (a.segIds b hb).1⟩) hl1 hl2 hl3 a.stack hg1 hg2 hg3 ?_
    · rw [oc b hb]
      exact (hO.cell b (List.mem_cons_of_mem _ hb)).2
    intro g G
    have ncl : ∀ j, st.stk ≤ j → some (Blk.stack j) ∉ [A1, L1, A2, L2, A3, L3] := fun j hj h => (old _ (List.mem_cons_of_mem _ h)).1 j hj rfl
    have nch : ∀ j, st.heap.tick ≤ j → some (Blk.heap j) ∉ [A1, L1, A2, L2, A3, L3] := fun j hj h => (old _ (List.mem_cons_of_mem _ h)).2 j hj rfl
    have gs : ∀ j, st.stk ≤ j → g (.stack j) = mem' (.stack j) := fun j hj => G.other _ (ncl j hj) (by simp)
    obtain ⟨rb, hB⟩ := a.buf
    have A : ∀ b, D.claims.blk = some b → (∃ rest, g (.heap b.id) = some (D.claims.items.flatMap recCells ++ rest)) ∧ Held g b.id h1.tick D.claims.items := by
      intro b hb
      obtain ⟨a1, a2, ⟨r, a3⟩, a4⟩ := a.arr b hb
      refine ⟨⟨r, (G.other _ (nch _ a1) fun c hc => by have := (a.segIds c hc).2.2.1 b hb; simp; omega).trans a3⟩, fun c hc => ?_⟩
      obtain ⟨c1, c2, c3, c4, c5⟩ := a4 c hc
      refine ⟨c1, c2, c3, c4, fun e he => ⟨(G.other _ (nch _ (a.ids c hc e he)) fun k hk => ?_).trans (c5 e he).1, (c5 e he).2⟩⟩
      have := (a.segIds k hk).2.2.2 c hc e he
      simp
      omega
    have hsz := a.size
    xs []
    refine wp_dFreeClaims env fuel (d + 1) (i := 16) rfl ((gs _ (by omega)).trans hB) (held_owned A) ⟨fun j hj => ?_, fun j hj => ?_⟩ w3.1.nodup (by omega) (by omega) hfc ?_
    · have hj : st.stk + 8 ≤ j := hj
      exact (gs j (by omega)).trans (a.stack j hj)
    · have hj : g3.tick ≤ j := hj
      exact G.empty _ (nch j (by omega)) (a.free j (by omega))
    xs []
    have cm : ∀ x, (∀ j, st.heap.tick ≤ j → x ≠ .heap j) → cmem g D.claims x = g x := fun x hx =>
      cmem_ne _ _ fun i e => ⟨fun b hb e2 => hx b.id (a.arr b hb).1 (by rw [e, e2]), fun c hc b hb e2 => hx b.id (a.ids c hc b hb) (by rw [e, e2])⟩
    have fin : ∀ b, some b ∈ [A1, L1, A2, L2, A3, L3] → dropStack st.stk (cmem g D.claims) b = g b := fun b hb => by
      have o := old b (List.mem_cons_of_mem _ hb)
      rw [dropStack_ne _ _ o.1, cm b o.2]
    have wr : ∀ O v, (∀ b, O = some b → some b ∈ [A1, L1, A2, L2, A3, L3]) → Wrote mem' g O v → Wrote st.mem (dropStack st.stk (cmem g D.claims)) O v :=
      fun O v hO1 hW b hb => by
      rw [fin b (hO1 b hb), hW b hb, oc b (hO1 b hb)]
    rw [hQf]
    refine ⟨by rw [hrv], _, rfl, ?_, {
      kept := ?_
      header := wr _ _ (fun b hb => by simp [hb]) G.w1
      headerLength := wr _ _ (fun b hb => by simp [hb]) G.n1
      payload := wr _ _ (fun b hb => by simp [hb]) G.w2
      payloadLength := wr _ _ (fun b hb => by simp [hb]) G.n2
      signature := wr _ _ (fun b hb => by simp [hb]) G.w3
      signatureLength := wr _ _ (fun b hb => by simp [hb]) G.n3
      bytes := fun p n hpn b hb => ?_ }⟩
    · rintro b e
      cases e
      have nn : some o1 ∉ [A1, L1, A2, L2, A3, L3] := fun h => dO1 o1 h rfl
      rw [dropStack_ne _ _ hO1.1, cm _ hO1.2, G.other _ nn fun b hb => hO1.2 _ (a.segIds b hb).1, a.frame _ hO1.1 hO1.2, hmo]
      rfl
    · refine ⟨fun x hx hy => ?_, fun j hj => dropStack_lt _ _ _ hj, fun j hj => ?_, w4.1⟩
      · by_cases hj : ∃ j, st.stk ≤ j ∧ x = .stack j
        · obtain ⟨j, hj, rfl⟩ := hj
          rw [dropStack_lt _ _ _ hj]
          exact (hw.stack j hj).symm
        · have hz : ∀ j, st.stk ≤ j → x ≠ .stack j := fun j hj' e => hj ⟨j, hj', e⟩
          rw [dropStack_ne _ _ hz, cm x hy, G.other x (fun h => hx (List.mem_cons_of_mem _ h)) fun b hb => hy _ (a.segIds b hb).1, a.frame x hz hy,
            hmB x hz fun e => hx (by simp [e])]
      · rw [dropStack_ne _ _ (by simp)]
        exact cmem_none _ _ (G.empty _ (nch j (by omega)) (a.free j (by omega)))
    · obtain ⟨hseg, hbytes⟩ := G.bytes p n hpn b hb
      rw [dropStack_ne _ _ (by simp), cmem_ne _ _ fun i e => ?_]
      · exact hbytes
      · cases e
        exact ⟨fun e he => (a.segIds b hseg).2.2.1 e he, fun c hc e he => (a.segIds b hseg).2.2.2 c hc e he⟩
  refine wp_core env fuel d (b := 8) (k := st.stk) (m := jm) (w := w) (q := q) ⟨by simp, by omega, rfl, rfl, rfl, rfl, rfl, rfl, rfl, rfl, rfl⟩ ?_ hh ?_ (fun b hb j hj => (uold b hb).1 j hj)
    ?_ ?_ ?_ ?_ ?_ ?_ ?_ (lb := [.undef, .undef, .undef, .undef, .undef]) ?_ rfl hjw z1 z2 z3 hg (validateDec_key hv) hb ?_ ?_
  · refine ⟨fun j hj => ?_, fun j hj => ?_⟩
    · have hj : st.stk + 8 ≤ j := hj
      exact (M _ (by simp; omega) (n1 j (by omega))).trans (hw.stack j (by omega))
    · exact (M _ (by simp) (Ne.symm (hO1.2 j hj))).trans (hw.heap j hj)
  · exact hd.frame fun b hb => M b (fun j h1 _ => (uold b hb).1 j h1) (fun e => hu b hb (by simp [e]))
  · rw [hm0, upd_ne _ _ (by simp), vmem_other _ _ (by intro j h1 h2; simp; omega), upd_ne _ _ (n1 _ (by omega)), upd_same]
  · rw [hm0]; simp [vmem, upd]
  · rw [hm0]; simp [vmem, upd]
  · rw [hm0]; simp [vmem, upd]
  · rw [hm0]; simp [vmem, upd]
  · rw [hm0]; simp [vmem, upd]
  · rw [hm0]; simp [vmem, upd]
  · rw [hm0, upd_same]
  · intro hrc mem' ha
    unfold rEnd
    xs []
    refine wp_loadV (c := cx env fuel (d + 3)) (by exact ha.val hrc) (by omega) (by rfl) (asTy_u32 _ D.validation.isLt) ?_
    xs [optV, Option.map_some]
    have hmo : mem' o1 = some [.int 4294967295] := (ha.frame o1 hO1.1 hO1.2).trans Mo
    refine wp_storeV own1 (l := [.int 4294967295]) (w := .int D.validation.toNat) (by exact hmo) (by omega) (by simp) (by rfl) ?_
    have ha1 := ha.out hT.2 hO1.1 hO1.2 (some [.int D.validation.toNat])
    xs []
    exact tail _ _ _ (by omega) ha1 (fun x hx hy => by rw [upd_ne _ _ hy, M x (fun j hj _ => hx j hj) hy]) (upd_same _ _ _)
  · intro hrc mem' ha
    unfold rEnd
    xs []
    exact tail _ _ _ rfl ha (fun x hx hy => M x (fun j hj _ => hx j hj) hy) (by rw [decodeBody_fail hb hrc]; exact Mo)

/-- src/decode.c:1001-1044. -/
def nSegs : Stmt :=
  .seq (.exp (.set 7 (.call "l8w8jwt_decode_segments" (.cons (.loc 0) (.cons (.loc 8) (.cons (.loc 9) (.cons (.loc 10) (.cons (.loc 11)
    (.cons (.loc 12) (.cons (.loc 13) .nil)))))))))) (.seq (.ite (.cmp .ne (.loc 7) (.num 0)) (.goto "exit") .skip)
  (.seq (.exp (.set 7 (.num 0))) (.seq (.label "exit") (dGives 1 8 (.ret (.loc 7))))))

/-- src/decode.c:986-1044. -/
def nRest : Stmt :=
  .seq (.exp (.set 7 (.call "l8w8jwt_validate_decoding_params" (.cons (.loc 0) .nil))))
    (.seq (.ite (.cmp .ne (.loc 7) (.num 0)) (.ret (.loc 7)) .skip) (dVars 8 nSegs))

/-- src/decode.c:972-1045 in pieces. -/
theorem nov_body : l8w8jwt_decode_raw_no_validation.body =
    .seq (.ite (.lor (.lor (.lor (.lor (.cmp .eq (.loc 0) .null) (.land (.land (.cmp .eq (.loc 1) .null) (.cmp .eq (.loc 3) .null)) (.cmp .eq (.loc 5) .null)))
      (eBad 1 2)) (eBad 3 4)) (eBad 5 6)) (.ret (.num 100)) .skip) nRest := rfl

theorem wp_decode_nov (env : Env) (fuel d : Nat) {s : Sched} {st : St} (hw : Wf st) (hh : HeapWf st.heap)
    {params : Option DecParams} {pv : Val} {A1 L1 A2 L2 A3 L3 : Option Blk} (hO : OutsAt st.mem [A1, L1, A2, L2, A3, L3])
    (hp : ParamsAt st.mem [A1, L1, A2, L2, A3, L3] pv params)
    (hz : ∀ q m, params = some q → q.jwt = some m → m.length + 66 < fuel ∧ m.length + 16 < 9223372036854775808)
    {out : RawOut} {h' : Heap} (hr : decodeRawNoValidation env params (rawArgs A1 L1 A2 L2 A3 L3) s st.heap = .ok (out, h')) :
    WP (runFun (cx env fuel (d + 3)) l8w8jwt_decode_raw_no_validation [pv, optV A1, optV L1, optV A2, optV L2, optV A3, optV L3]) s st fun v st' =>
      v = .int out.rc ∧ ∃ mem', st' = { st with heap := h', mem := mem' } ∧
        RawDone st [A1, L1, A2, L2, A3, L3] A1 L1 A2 L2 A3 L3 out h' mem' := by
  apply wp_runFun
  rw [nov_body]
  rw [show l8w8jwt_decode_raw_no_validation.slots - l8w8jwt_decode_raw_no_validation.params = 7 from rfl]
  simp only [List.replicate, List.cons_append, List.nil_append]
  obtain ⟨Qf, hQf⟩ : ∃ Qf : Val → St → Prop, Qf = fun v st' =>
    v = .int out.rc ∧ ∃ mem', st' = { st with heap := h', mem := mem' } ∧
        RawDone st [A1, L1, A2, L2, A3, L3] A1 L1 A2 L2 A3 L3 out h' mem' := ⟨_, rfl⟩
  simp only [← hQf]
  have early : ∀ rc, out = { rc := rc } → h' = st.heap → Qf (.int rc) st := by
    rintro rc rfl rfl
    rw [hQf]
    exact ⟨rfl, st.mem, rfl, RawDone.nothing hw hh _ _ _ _ _ _ _ _⟩
  obtain ⟨pp, hpp, hpn⟩ : ∃ pp, pv = .ptr pp ∧ pp.isNone = params.isNone := by
    cases params with
    | none => exact ⟨none, hp, rfl⟩
    | some q => obtain ⟨P, w, h, -⟩ := hp; exact ⟨_, h, rfl⟩
  refine Cond.guard (((((Cond.isNull (o := pp) ?_).lor (((Cond.isNull (o := A1.map fun b => (b, 0)) rfl).land (Cond.isNull (o := A2.map fun b => (b, 0)) rfl)).land
    (Cond.isNull (o := A3.map fun b => (b, 0)) rfl))).lor
    ((Cond.notNull (o := A1.map fun b => (b, 0)) rfl).land (Cond.isNull (o := L1.map fun b => (b, 0)) rfl))).lor
    ((Cond.notNull (o := A2.map fun b => (b, 0)) rfl).land (Cond.isNull (o := L2.map fun b => (b, 0)) rfl))).lor
    ((Cond.notNull (o := A3.map fun b => (b, 0)) rfl).land (Cond.isNull (o := L3.map fun b => (b, 0)) rfl))) ?_ ?_
  · exact hpp
  · intro hb
    simp only [optV_isNone, hpn] at hb
    unfold decodeRawNoValidation at hr
    cases params with
    | none =>
      cases hr
      xs [dropStack_wf hw]
      exact early _ rfl rfl
    | some q =>
      simp only at hr
      rw [if_pos (by simpa [rawArgs, RawArgs.bad, or_assoc, and_assoc] using hb)] at hr
      cases hr
      xs [dropStack_wf hw]
      exact early _ rfl rfl
  intro hb
  simp only [optV_isNone, hpn] at hb
  cases params with
  | none => simp at hb
  | some q =>
  obtain ⟨P, w, rfl, hd, hu⟩ := hp
  unfold decodeRawNoValidation at hr
  simp only at hr
  have hbad : (A1.isNone && A2.isNone && A3.isNone || (rawArgs A1 L1 A2 L2 A3 L3).bad) = false := by
    simp only [Option.isNone_some, Bool.false_or] at hb
    simp only [rawArgs, RawArgs.bad]
    rw [← hb]
    simp only [Bool.or_assoc]
  rw [show (rawArgs A1 L1 A2 L2 A3 L3).header = A1.isNone from rfl, show (rawArgs A1 L1 A2 L2 A3 L3).payload = A2.isNone from rfl,
    show (rawArgs A1 L1 A2 L2 A3 L3).signature = A3.isNone from rfl, hbad] at hr
  simp only [Bool.false_eq_true, if_false] at hr
  simp only [Option.isNone_some, Bool.false_or, Bool.or_eq_false_iff] at hb
  obtain ⟨⟨⟨-, hb1⟩, hb2⟩, hb3⟩ := hb
  have hl1 : A1 ≠ none → L1 ≠ none := by cases A1 <;> cases L1 <;> simp at hb1 ⊢
  have hl2 : A2 ≠ none → L2 ≠ none := by cases A2 <;> cases L2 <;> simp at hb2 ⊢
  have hl3 : A3 ≠ none → L3 ≠ none := by cases A3 <;> cases L3 <;> simp at hb3 ⊢
  unfold nRest
  xs []
  have old := OutsAt.old hw hO
  have uold := ParamsAt.old hw hd
  refine wp_validate_params env fuel (d + 2) (by exact hw.stack) (by exact hd) ?_
  by_cases hv : validateDecodingParams env (some q) = 0
  case neg =>
    rw [if_pos (by simpa [L8W8JWT_SUCCESS] using hv)] at hr
    cases hr
    have hv' : ¬ (validateDecodingParams env (some q) : Int) = 0 := by omega
    xs [hv', dropStack_wf hw]
    exact early _ rfl rfl
  rw [if_neg (by simpa [L8W8JWT_SUCCESS] using hv)] at hr
  rw [hv]
  xs []
  refine wp_dVars (by simp) ?_
  show WP _ s ⟨[.ptr (some (P, 0)), optV A1, optV L1, optV A2, optV L2, optV A3, optV L3, .int 0, .ptr (some (.stack st.stk, 0)), .ptr (some (.stack (st.stk + 1), 0)),
    .ptr (some (.stack (st.stk + 2), 0)), .ptr (some (.stack (st.stk + 3), 0)), .ptr (some (.stack (st.stk + 4), 0)), .ptr (some (.stack (st.stk + 5), 0))],
    st.heap, vmem st.mem st.stk, st.stk + 6⟩ _
  cases hjw : q.jwt with
  | none => simp [validateDecodingParams, hjw] at hv
  | some jm =>
  obtain ⟨z1, z2⟩ := hz q jm rfl hjw
  obtain ⟨S, h1, hb, hr2⟩ := M.bind_inv hr
  obtain ⟨p1, g1, hg1, hr3⟩ := M.bind_inv hr2
  obtain ⟨p2, g2, hg2, hr4⟩ := M.bind_inv hr3
  obtain ⟨p3, g3, hg3, hr5⟩ := M.bind_inv hr4
  cases hr5
  have hk := segs_ok hjw hb
  have hT := tidy_decodeSegments _ _ _ _ _ hb hh
  have w1 := tidy_giveOrFree _ _ _ _ _ _ _ hg1 hT.1
  have w2 := tidy_giveOrFree _ _ _ _ _ _ _ hg2 w1.1
  have w3 := tidy_giveOrFree _ _ _ _ _ _ _ hg3 w2.1
  have tk : h'.tick = h1.tick := by rw [(giveOrFree_inv hg3).2.2, (giveOrFree_inv hg2).2.2, (giveOrFree_inv hg1).2.2]
  have seg : ∀ b, (S.header = some b ∨ S.payload = some b ∨ S.signature = some b) → st.heap.tick ≤ b.id ∧ b.id < h1.tick := by
    rintro b (h | h | h)
    · exact ⟨(hk.header b h).1, (hk.header b h).2.1⟩
    · exact ⟨(hk.payload b h).1, (hk.payload b h).2.1⟩
    · exact ⟨(hk.signature b h).1, (hk.signature b h).2.1⟩
  have vo : ∀ x, (∀ j, st.stk ≤ j → x ≠ .stack j) → vmem st.mem st.stk x = st.mem x := fun x hx => vmem_other _ _ fun j hj _ => hx j hj
  unfold nSegs
  xs []
  rw [cx_fun _ _ _ (fn := l8w8jwt_decode_segments) rfl]
  refine wp_decode_segments env fuel d (st := ⟨_, st.heap, vmem st.mem st.stk, st.stk + 6⟩) ⟨fun j hj => ?_, fun j hj => ?_⟩ (hd.frame (mem' := vmem st.mem st.stk) fun b hb => vo b (uold b hb).1) (i := st.stk)
    (fun x hx j hj => (uold x hx).1 j hj) ?_ ?_ ?_ ?_ ?_ ?_ ?_ hb ?_
  · have hj : st.stk + 6 ≤ j := hj
    exact (vmem_other st.mem st.stk (by intro i _ _; simp; omega)).trans (hw.stack j (by omega))
  · exact (vmem_other st.mem st.stk (by simp)).trans (hw.heap j hj)
  · simp [vmem, upd]
  · simp [vmem, upd]
  · simp [vmem, upd]
  · simp [vmem, upd]
  · simp [vmem, upd]
  · simp [vmem, upd]
  · intro m' hm'
    rw [hjw] at hm'
    cases hm'
    omega
  obtain ⟨m2, hm2⟩ : ∃ m2, m2 = segsMem (vmem st.mem st.stk) st.stk S := ⟨_, rfl⟩
  have hS2 : SegsAt m2 st.stk S := hm2 ▸ segsMem_at hk
  have f2 : ∀ x, (∀ j, st.stk ≤ j → j < st.stk + 6 → x ≠ .stack j) → (∀ j, st.heap.tick ≤ j → j < h1.tick → x ≠ .heap j) → m2 x = st.mem x :=
    fun x h1 h3 => (hm2 ▸ segsMem_other hk (fun j a b => h1 j a (by omega)) h3).trans (vmem_other _ _ h1)
  have oc : ∀ b, some b ∈ [A1, L1, A2, L2, A3, L3] → m2 b = st.mem b := fun b hb => f2 b (fun j hj _ => (old b hb).1 j hj) (fun j hj _ => (old b hb).2 j hj)
  have tail : ∀ rv : Int, rv = S.rc → WP (exec (cx env fuel (d + 3)) (dGives 1 8 (.ret (.loc 7))) .run) s
      ⟨[.ptr (some (P, 0)), optV A1, optV L1, optV A2, optV L2, optV A3, optV L3, .int rv, .ptr (some (.stack st.stk, 0)), .ptr (some (.stack (st.stk + 1), 0)),
    .ptr (some (.stack (st.stk + 2), 0)), .ptr (some (.stack (st.stk + 3), 0)), .ptr (some (.stack (st.stk + 4), 0)), .ptr (some (.stack (st.stk + 5), 0))],
    h1, m2, st.stk + 6⟩ (Return st Qf) := by
    intro rv hrv
    refine wp_dGives env fuel (d + 2) (i := st.stk) (A1 := A1) (L1 := L1) (A2 := A2) (L2 := L2) (A3 := A3) (L3 := L3) rfl rfl rfl rfl rfl rfl rfl rfl rfl rfl rfl rfl hS2
      ⟨by have := hk.hl; omega, by have := hk.pl; omega, by have := hk.sl; omega⟩
      hk.hp hk.hs hk.ps ⟨fun b hb => ⟨(hO.cell b hb).1, ?_⟩, hO.diff⟩ (fun x hx => ⟨(old x hx).1,
        fun b hb => (old x hx).2 _ (seg b hb).1⟩) hl1 hl2 hl3 (fun j hj => ?_) hg1 hg2 hg3 ?_
    · rw [oc b hb]
      exact (hO.cell b hb).2
    · have hj : st.stk + 6 ≤ j := hj
      exact (f2 _ (by intro i _ _; simp; omega) (by simp)).trans (hw.stack j (by omega))
    intro g G
    have nch : ∀ j, st.heap.tick ≤ j → some (Blk.heap j) ∉ [A1, L1, A2, L2, A3, L3] := fun j hj h => (old _ h).2 j hj rfl
    xs []
    have fin : ∀ b, some b ∈ [A1, L1, A2, L2, A3, L3] → dropStack st.stk g b = g b := fun b hb => dropStack_ne _ _ (old b hb).1
    have wr : ∀ O v, (∀ b, O = some b → some b ∈ [A1, L1, A2, L2, A3, L3]) → Wrote m2 g O v → Wrote st.mem (dropStack st.stk g) O v :=
      fun O v hO1 hW b hb => by
      rw [fin b (hO1 b hb), hW b hb, oc b (hO1 b hb)]
    rw [hQf]
    refine ⟨by rw [hrv], _, rfl, {
      kept := ?_
      header := wr _ _ (fun b hb => by simp [hb]) G.w1
      headerLength := wr _ _ (fun b hb => by simp [hb]) G.n1
      payload := wr _ _ (fun b hb => by simp [hb]) G.w2
      payloadLength := wr _ _ (fun b hb => by simp [hb]) G.n2
      signature := wr _ _ (fun b hb => by simp [hb]) G.w3
      signatureLength := wr _ _ (fun b hb => by simp [hb]) G.n3
      bytes := fun p n hpn b hb => ?_ }⟩
    · refine ⟨fun x hx hy => ?_, fun j hj => dropStack_lt _ _ _ hj, fun j hj => ?_, w3.1⟩
      · by_cases hj : ∃ j, st.stk ≤ j ∧ x = .stack j
        · obtain ⟨j, hj, rfl⟩ := hj
          rw [dropStack_lt _ _ _ hj]
          exact (hw.stack j hj).symm
        · have hz : ∀ j, st.stk ≤ j → x ≠ .stack j := fun j hj' e => hj ⟨j, hj', e⟩
          rw [dropStack_ne _ _ hz, G.other x hx fun b hb => hy _ (seg b hb).1, f2 x (fun j hj _ => hz j hj) (fun j hj _ => hy j hj)]
      · rw [dropStack_ne _ _ (by simp)]
        have := hT.2
        exact G.empty _ (nch j (by omega)) ((f2 _ (by simp) (by intro i _ _; simp; omega)).trans (hw.heap j (by omega)))
    · rw [dropStack_ne _ _ (by simp)]
      exact (G.bytes p n hpn b hb).2
  xs []
  by_cases hrc : S.rc = 0
  · have : (S.rc : Int) = 0 := by omega
    xs [this]
    rw [← hm2]
    exact tail 0 (by omega)
  · have : ¬ (S.rc : Int) = 0 := by omega
    xs [this]
    rw [← hm2]
    exact tail _ rfl

/-! ## `l8w8jwt_decoding_params_init` -/

/-- All members zero. -/
def zeroPtrs : DecPtrs := ⟨.int 0, .int 0, .int 0, .int 0, .int 0, .int 0, .int 0, 0, 0, 0⟩

/-- src/decode.c:739-747: the text of `l8w8jwt_decoding_params_init`. -/
theorem params_init_text (env : Env) (fuel d : Nat) (s : Sched) (st : St) (hw : Wf st) (P : Blk) (l : List Val) (hP : P.own = true)
    (h : st.mem P = some l) (hl : l.length = 21) :
    runFun (cx env fuel d) l8w8jwt_decoding_params_init [.ptr (some (P, 0))] s st =
      .ok (.undef, { st with mem := upd st.mem P (some (decCells decodingParamsInit zeroPtrs)) }) := by
  apply run_of_wp
  apply wp_runFun
  simp only [l8w8jwt_decoding_params_init, Nat.reduceSub, List.replicate, List.append_nil]
  xs []
  refine wp_memset env fuel d (v := 0) (n := 21) hP (by exact h) (by omega) (by simp [hl]) ?_
  have e : poke l (0 : Int).toNat (List.replicate (21 : Int).toNat (.int (0 % 256))) = List.replicate 21 (.int 0) := by
    simp [poke, hl]
  rw [e]
  xs []
  refine wp_paddV (c := cx env fuel d) (l := List.replicate 21 (.int 0)) ((cont_own hP).trans (upd_same _ _ _)) (by omega) (by simp) ?_
  xs []
  refine wp_storeV hP (l := List.replicate 21 (.int 0)) (w := .int (-2)) (by exact upd_same _ _ _) (by omega) (by simp) (by rfl) ?_
  xs [upd_upd]
  have hd : dropStack st.stk (upd st.mem P (some (decCells decodingParamsInit zeroPtrs))) = upd st.mem P (some (decCells decodingParamsInit zeroPtrs)) := by
    funext x
    cases x with
    | stack j =>
      simp only [dropStack]
      split
      · rename_i hj
        rw [upd_ne _ _ ?_, hw.stack j hj]
        rintro rfl
        rw [hw.stack j hj] at h
        cases h
      · rfl
    | _ => rfl
  exact congrArg (fun m => (⟨st.fr, st.heap, m, st.stk⟩ : St)) hd

/-- NULL. -/
theorem params_init_null (env : Env) (fuel d : Nat) (s : Sched) (st : St) (hw : Wf st) :
    runFun (cx env fuel d) l8w8jwt_decoding_params_init [.ptr none] s st = .ok (.undef, st) := by
  apply run_of_wp
  apply wp_runFun
  simp only [l8w8jwt_decoding_params_init, Nat.reduceSub, List.replicate, List.append_nil]
  xs [dropStack_wf hw]

/-- The parameters after `l8w8jwt_decoding_params_init`. -/
theorem init_decAt {mem : Blk → Option (List Val)} {P : Blk} (hP : P.own = true) (h : mem P = some (decCells decodingParamsInit zeroPtrs)) :
    DecAt mem P decodingParamsInit zeroPtrs := by
  refine ⟨hP, h, rfl, rfl, rfl, rfl, rfl, rfl, rfl, ?_, ?_, ?_, ?_, ?_, ?_, ?_, ?_, ?_, ?_, ?_⟩ <;> decide

end L8w8jwt.C
