import Verif.C.Base64DecProof
/-!
# The text of src/version.c
-/

namespace L8w8jwt.C

set_option linter.unusedSimpArgs false

open Src

/-- src/version.c:30-33: the text of `l8w8jwt_get_version_number` returns what the model says. -/
theorem version_number_text (env : Env) (fuel d : Nat) (s : Sched) (st : St) (hw : Wf st) :
    runFun (cx env fuel d) l8w8jwt_get_version_number [] s st = .ok (.int versionNumber, st) := by
  apply run_of_wp
  apply wp_runFun
  simp only [l8w8jwt_get_version_number, Nat.reduceSub, List.replicate, List.append_nil]
  xs [dropStack_wf hw]
  rfl

/-- `memcpy(p, q, n)` between two objects. -/
theorem wp_memcpy (env : Env) (fuel d : Nat) {b b' : Blk} {o o' n : Int} {s : Sched} {st : St} {l l' : List Val} {Q : Val → St → Prop}
    (hb : b.own = true) (h : st.mem b = some l) (h' : cont globs st.mem b' = some l') (ho : 0 ≤ o) (ho' : 0 ≤ o')
    (hl : o.toNat + n.toNat ≤ l.length) (hl' : o'.toNat + n.toNat ≤ l'.length)
    (hq : Q (.ptr (some (b, o))) { st with mem := upd st.mem b (some (poke l o.toNat ((l'.drop o'.toNat).take n.toNat))) }) :
    WP ((cx env fuel d).call "memcpy" [.ptr (some (b, o)), .ptr (some (b', o')), .int n]) s st Q := by
  rw [cx_lib _ _ _ rfl]
  show WP (do let x ← readCells (lctx env) (.ptr (some (b', o'))) n.toNat; let _ ← writeCells (lctx env) (.ptr (some (b, o))) x; pure (.ptr (some (b, o)))) s st Q
  refine ⟨_, _, ?_, hq⟩
  have hlen : ((l'.drop o'.toNat).take n.toNat).length = n.toNat := by rw [List.length_take, List.length_drop]; omega
  simp only [X.bind_apply, readCells, obj_cont (c := lctx env) h']
  rw [if_pos (by exact ⟨ho', hl'⟩)]
  simp only [X.pure_apply, writeCells, X.bind_apply, obj_own hb h, hlen]
  rw [if_pos (by exact ⟨ho, hl⟩), setObj_own hb]
  simp [X.pure_apply, poke, hlen]

/-- src/version.c:35-42: the text of `l8w8jwt_get_version_string` writes what the model says. -/
theorem version_string_text (env : Env) (fuel d : Nat) (s : Sched) (st : St) (hw : Wf st) (p : Val) (k : Nat)
    (h : Room st.mem p (some k)) (hk : 6 ≤ k) :
    runFun (cx env fuel d) l8w8jwt_get_version_string [p] s st =
      .ok (.undef, { st with mem := wr st.mem p (cells versionString) }) := by
  rw [show versionString = [50, 46, 51, 46, 52, 0] by decide +kernel]
  obtain ⟨b, o, l, rfl, hb, h, ho⟩ := h
  have hs := hw.freshStack ((cont_own (g := globs) hb).trans h) (Nat.le_refl _)
  apply run_of_wp
  apply wp_runFun
  simp only [l8w8jwt_get_version_string, Nat.reduceSub, List.replicate, List.cons_append, List.nil_append]
  xs []
  refine wp_memcpy _ _ _ (l := l) (l' := [.int 50, .int 46, .int 51, .int 46, .int 52, .int 0]) hb ?_ ?_ (by omega) (by omega) ?_ ?_ ?_
  · exact (upd_ne _ _ hs).trans h
  · exact (cont_own rfl).trans (upd_same _ _ _)
  · simp; omega
  · simp
  xs []
  refine wp_paddV (l := poke l o (cells [50, 46, 51, 46, 52])) ?_ ?_ ?_ ?_
  · exact (cont_own hb).trans (upd_same _ _ _)
  · omega
  · rw [poke_length (by simp [cells]; omega)]; omega
  xs []
  refine wp_storeV (l := poke l o (cells [50, 46, 51, 46, 52])) hb ?_ ?_ ?_ rfl ?_
  · exact upd_same _ _ _
  · omega
  · rw [poke_length (by simp [cells]; omega)]; omega
  xs [upd_upd]
  rw [show ((o : Int) + (6 - 1)).toNat = o + (cells [50, 46, 51, 46, 52]).length by simp [cells]; omega, poke_snoc _ (by simp [cells]; omega)]
  rw [dropStack_upd hw h, dropStack_stack (Nat.le_refl _), dropStack_wf hw, wr_some h]
  rfl

end L8w8jwt.C
