import Verif.C.UtilProof
import Verif.C.Base64EncProof
import Verif.C.Base64DecProof
import Verif.C.VersionProof
import Verif.Props.Base64
import Verif.Props.Util
import Verif.Proofs.Toy
/-!
# What the text of the functions does to memory

The theorems here are about executions of the text of /repo/src, as parsed in Verif/C/Unit.lean, by the semantics of
Verif/C/Sem.lean. The hand-written functions of Verif/Model do not occur in the statements.
-/

namespace L8w8jwt.Spec

open C

/-- The value stored where `v` points to. -/
def cellAt (mem : Blk → Option (List Val)) : Val → Option Val
  | .ptr (some (b, o)) => if 0 ≤ o then (mem b).bind fun l => l[o.toNat]? else none
  | _ => none

/-- The object `b` begins with these bytes. -/
def Begins (mem : Blk → Option (List Val)) (b : Blk) (d : Bytes) : Prop := ∃ rest, mem b = some (cells d ++ rest)

/-- Objects other than the ones in `bs` are unchanged, and no object is gone or has another size. -/
def Unchanged (mem mem' : Blk → Option (List Val)) (bs : List (Option Blk)) : Prop :=
  (∀ b, some b ∉ bs → mem' b = mem b) ∧ ∀ b l, mem b = some l → ∃ l', mem' b = some l' ∧ l'.length = l.length

end L8w8jwt.Spec

namespace L8w8jwt.C

open Spec

theorem poke_get {l : List Val} {o : Nat} {v : Val} (h : o < l.length) : (poke l o [v])[o]? = some v := by
  rw [poke_one _ h]; exact get_set h

theorem wr_ne {mem : Blk → Option (List Val)} {v : Val} {w : List Val} {b : Blk} (h : some b ≠ v.blk) : wr mem v w b = mem b := by
  unfold wr
  split
  · apply upd_ne
    rintro rfl
    exact h rfl
  · rfl

theorem wr_blk_none {mem : Blk → Option (List Val)} {v : Val} {w : List Val} {b : Blk} (h : mem b = none) : wr mem v w b = none := by
  unfold wr
  split
  · rename_i b' o
    by_cases hb : b = b'
    · subst hb; rw [upd_same, h]; rfl
    · rw [upd_ne _ _ hb, h]
  · exact h

theorem bufMem_ne {mem : Blk → Option (List Val)} {p3 p4 : Val} {size : Nat} {o : BufOut} {b : Blk} {id : Nat}
    (hid : ∀ blk, o.out = some (some blk) → blk.id = id) (h3 : some b ≠ p3.blk) (h4 : some b ≠ p4.blk) (hb : b ≠ .heap id) :
    bufMem mem p3 p4 size o b = mem b := by
  unfold bufMem
  rw [wr_ne h4]
  cases hp : o.out with
  | none => rfl
  | some p =>
    cases p with
    | none => simp only [newBlk]; exact wr_ne h3
    | some blk =>
      simp only [newBlk]
      rw [upd_ne _ _ (by rw [hid blk hp]; exact hb)]
      exact wr_ne h3

theorem bufMem_none {mem : Blk → Option (List Val)} {p3 p4 : Val} {size : Nat} {o : BufOut} {b : Blk} {id : Nat}
    (hid : ∀ blk, o.out = some (some blk) → blk.id = id) (h : mem b = none) (hb : b ≠ .heap id) :
    bufMem mem p3 p4 size o b = none := by
  unfold bufMem
  apply wr_blk_none
  cases hp : o.out with
  | none => exact h
  | some p =>
    cases p with
    | none => simp only [newBlk]; exact wr_blk_none h
    | some blk =>
      simp only [newBlk]
      rw [upd_ne _ _ (by rw [hid blk hp]; exact hb)]
      exact wr_blk_none h

theorem wr_len {mem : Blk → Option (List Val)} {v x : Val} {b : Blk} {l : List Val} (h : Slot mem v false) (hl : mem b = some l) :
    ∃ l', wr mem v [x] b = some l' ∧ l'.length = l.length := by
  obtain ⟨k, b', o, c, rfl, hb, h, ho⟩ := (h : ∃ k, Room mem v (some (k + 1)))
  rw [wr_some h]
  by_cases e : b = b'
  · subst e
    cases h.symm.trans hl
    exact ⟨_, upd_same _ _ _, poke_length (by simp; omega)⟩
  · exact ⟨l, by rw [upd_ne _ _ e, hl], rfl⟩

theorem bufMem_len {st : St} (hw : Wf st) {p3 p4 : Val} {size : Nat} {o : BufOut} {b : Blk} {l : List Val}
    (h3 : Slot st.mem p3 false) (h4 : Slot st.mem p4 false) (hid : ∀ blk, o.out = some (some blk) → blk.id = st.heap.tick)
    (hl : st.mem b = some l) : ∃ l', bufMem st.mem p3 p4 size o b = some l' ∧ l'.length = l.length := by
  unfold bufMem
  have key : ∀ b l, st.mem b = some l → ∃ l', (match (motive := Option Ptr → Blk → Option (List Val)) o.out with
      | none => st.mem
      | some p => newBlk (wr st.mem p3 [ptrVal p]) p size) b = some l' ∧ l'.length = l.length := by
    intro b l hl
    cases ho : o.out with
    | none => exact ⟨l, hl, rfl⟩
    | some p =>
      cases p with
      | none => exact wr_len h3 hl
      | some blk =>
        simp only [newBlk, hid blk ho]
        rw [upd_ne _ _ (hw.freshOwn hl)]
        exact wr_len h3 hl
  obtain ⟨k4, b4, o4, c4, rfl, hb4, h4, ho4⟩ := (h4 : ∃ k, Room st.mem p4 (some (k + 1)))
  obtain ⟨l1, h1, e1⟩ := key b l hl
  obtain ⟨l2, h2, e2⟩ := key b4 c4 h4
  cases o.len with
  | none => simp only [Option.toList, List.map_nil, wr_nil]; exact ⟨l1, h1, e1⟩
  | some k =>
    simp only [Option.toList, List.map_cons, List.map_nil]
    obtain ⟨l3, h3, e3⟩ := wr_len (v := .ptr (some (b4, (o4 : Int)))) (x := .int k) (show Slot _ _ false from ⟨k4, b4, o4, l2, rfl, hb4, h2, by omega⟩) h1
    exact ⟨l3, h3, by omega⟩

/-- What is in memory after a successful call. -/
theorem bufMem_success {st : St} (hw : Wf st) {p3 p4 : Val} {size len rc : Nat} {blk : Block} (h3 : Slot st.mem p3 false)
    (h4 : Slot st.mem p4 false) (h34 : Sep p3 p4) (hid : blk.id = st.heap.tick) {m : Blk → Option (List Val)}
    (hm : m = bufMem st.mem p3 p4 size { rc := rc, out := some (some blk), len := some len }) :
    cellAt m p3 = some (.ptr (some (.heap st.heap.tick, 0))) ∧ cellAt m p4 = some (.int len) ∧
    m (.heap st.heap.tick) = some (cells blk.mem ++ List.replicate (size - blk.mem.length) .undef) ∧
    Unchanged st.mem m [p3.blk, p4.blk, some (.heap st.heap.tick)] ∧
    (∀ j, st.stk ≤ j → m (.stack j) = none) ∧ ∀ i, st.heap.tick + 1 ≤ i → m (.heap i) = none := by
  obtain ⟨k3, b3, o3, c3, rfl, hb3, h3, ho3⟩ := (h3 : ∃ k, Room st.mem p3 (some (k + 1)))
  obtain ⟨k4, b4, o4, c4, rfl, hb4, h4, ho4⟩ := (h4 : ∃ k, Room st.mem p4 (some (k + 1)))
  have hb3t := hw.freshOwn h3
  have hb4t := hw.freshOwn h4
  have hb34 : b3 ≠ b4 := h34.ne
  have hm' : m = upd (upd (upd st.mem b3 (some (c3.set o3 (.ptr (some (.heap st.heap.tick, 0)))))) (.heap st.heap.tick)
      (some (cells blk.mem ++ List.replicate (size - blk.mem.length) .undef))) b4 (some (c4.set o4 (.int len))) := by
    rw [hm]
    simp only [bufMem, ptrVal, newBlk, Option.toList, List.map_cons, List.map_nil, wr_some h3, poke_one _ (show o3 < c3.length by omega), hid]
    rw [wr_some (l := c4), poke_one _ (show o4 < c4.length by omega)]
    rw [upd_ne _ _ hb4t, upd_ne _ _ hb34.symm, h4]
  refine ⟨?_, ?_, ?_, ?_, ?_, ?_⟩
  · simp only [cellAt, hm']
    rw [if_pos (by omega), upd_ne _ _ hb34, upd_ne _ _ hb3t, upd_same, Int.toNat_natCast]
    exact get_set (by omega)
  · simp only [cellAt, hm']
    rw [if_pos (by omega), upd_same, Int.toNat_natCast]
    exact get_set (by omega)
  · rw [hm', upd_ne _ _ hb4t.symm, upd_same]
  · refine ⟨fun b hb => ?_, fun b l hl => ?_⟩
    · simp only [List.mem_cons, List.not_mem_nil, or_false, not_or] at hb
      rw [hm]
      exact bufMem_ne (by rintro _ ⟨⟩; exact hid) hb.1 hb.2.1 (fun h => hb.2.2 (by rw [h]))
    · rw [hm']
      by_cases e4 : b = b4
      · subst e4
        cases h4.symm.trans hl
        exact ⟨_, upd_same _ _ _, by simp⟩
      · rw [upd_ne _ _ e4, upd_ne _ _ (hw.freshOwn hl)]
        by_cases e3 : b = b3
        · subst e3
          cases h3.symm.trans hl
          exact ⟨_, upd_same _ _ _, by simp⟩
        · rw [upd_ne _ _ e3]; exact ⟨l, hl, rfl⟩
  · intro j hj
    rw [hm]
    exact bufMem_none (id := st.heap.tick) (by rintro _ ⟨⟩; exact hid) (hw.stack j hj) (by intro h; cases h)
  · intro i hi
    rw [hm]
    exact bufMem_none (id := st.heap.tick) (by rintro _ ⟨⟩; exact hid) (hw.heap i (by omega)) (by intro h; cases h; omega)

/-- **C73** Encoding: the text of `l8w8jwt_base64_encode` ends without undefined behaviour, stores the RFC 4648 text of the
data with a NUL in a new block, the address of the block in `*out` and the length in `*out_length`, and changes nothing
else. -/
theorem C73_base64_encode_text (env : Env) (fuel d : Nat) (s : Sched) (st : St) (hw : Wf st) (u : Int) (p1 p3 p4 : Val) (l : Bytes)
    (n : Nat) (h1 : Pts globs st.mem p1 (some l)) (h3 : Slot st.mem p3 false) (h4 : Slot st.mem p4 false)
    (h13 : Sep p1 p3) (h34 : Sep p3 p4) (h0 : n ≠ 0) (hl : n ≤ l.length) (hn : n < 2 ^ 62)
    (hu : u ≠ 0 → 4 * ((n + 2) / 3) ≤ 2147483647) (hs : s.failAlloc st.heap.tick = false) (hf : n < fuel) {text : Bytes}
    (ht : text = b64Text (decide (u ≠ 0)) (l.take n)) :
    ∃ st', runFun (cx env fuel d) Src.l8w8jwt_base64_encode [.int u, p1, .int n, p3, p4] s st = .ok (.int 0, st') ∧
      cellAt st'.mem p3 = some (.ptr (some (.heap st.heap.tick, 0))) ∧ cellAt st'.mem p4 = some (.int text.length) ∧
      Begins st'.mem (.heap st.heap.tick) (text ++ [0]) ∧
      Unchanged st.mem st'.mem [p3.blk, p4.blk, some (.heap st.heap.tick)] ∧
      st'.heap.live = st.heap.tick :: st.heap.live ∧ st'.stk = st.stk ∧ Wf st' := by
  have hu' : decide (u ≠ 0) = true → 4 * ((n + 2) / 3) ≤ intMax := fun h => hu (by simpa using h)
  have hr := base64Encode_eq (decide (u ≠ 0)) l n s st.heap hl h0 hn hu'
  rw [hs] at hr
  simp only [Bool.false_eq_true, if_false] at hr
  have := base64_encode_text env fuel d s st hw u p1 p3 p4 (some l) n false false h1 h3 h4 h13 h34 (by omega) _ _ hr hf
  obtain ⟨a1, a2, a3, a4, a5, a6⟩ := bufMem_success hw (size := b64OutSize n) (rc := L8W8JWT_SUCCESS)
    (len := (b64Text (decide (u ≠ 0)) (l.take n)).length) (blk := ⟨st.heap.tick, encMem (decide (u ≠ 0)) (l.take n)⟩) h3 h4 h34 rfl rfl
  refine ⟨_, this, a1, by rw [ht]; exact a2, ?_, a4, rfl, rfl, ⟨a5, a6⟩⟩
  obtain ⟨blk, e1, e2, e3, e4⟩ := C02_base64_rfc4648 _ _ _ _ _ _ _ (by omega) hr rfl
  cases e1
  rw [← ht] at e3 e4
  have hsplit : encMem (decide (u ≠ 0)) (l.take n) = text ++ [0] ++ (encMem (decide (u ≠ 0)) (l.take n)).drop (text.length + 1) := by
    conv => lhs; rw [← List.take_append_drop text.length (encMem (decide (u ≠ 0)) (l.take n))]
    simp only at e3 e4
    rw [e3, List.append_assoc]
    congr 1
    obtain ⟨hlt, e4⟩ := List.getElem?_eq_some_iff.mp e4
    rw [List.drop_eq_getElem_cons hlt, e4]
    rfl
  refine ⟨cells ((encMem (decide (u ≠ 0)) (l.take n)).drop (text.length + 1)) ++ List.replicate (b64OutSize n - (encMem (decide (u ≠ 0)) (l.take n)).length) .undef, ?_⟩
  rw [← List.append_assoc, ← cells_append, ← hsplit]
  exact a3

/-- A buffer with 2 pointers and 2 lengths after it, for the examples. -/
def exSt (data : Bytes) : St where
  fr := []
  heap := heap0
  mem := fun b => if b = .stack 0 then some (cells data) else if b = .stack 1 then some [.undef, .undef]
    else if b = .stack 2 then some [.undef, .undef] else none
  stk := 3

theorem exSt_wf (data : Bytes) : Wf (exSt data) :=
  ⟨fun j hj => by
    have hj : 3 ≤ j := hj
    simp only [exSt, Blk.stack.injEq]
    rw [if_neg (by omega), if_neg (by omega), if_neg (by omega)],
   fun i _ => by simp [exSt]⟩

/-- Pointer to a local object of the examples. -/
def exPtr (j o : Nat) : Val := .ptr (some (.stack j, (o : Int)))

/-- What a run returns and leaves in the objects of the examples. -/
def exRes (r : Except Err (Val × St)) : Option (Val × List (Option (List Val))) :=
  match r with
  | .error _ => none
  | .ok (v, st) => some (v, [st.mem (.stack 0), st.mem (.stack 1), st.mem (.stack 2), st.mem (.heap 0), st.mem (.heap 1)])

example : exRes (runFun (cx toy 10 0) Src.l8w8jwt_base64_encode [.int 0, exPtr 0 0, .int 2, exPtr 1 0, exPtr 2 1] calm (exSt (str "AB"))) =
    some (.int 0, [some (cells (str "AB")), some [.ptr (some (.heap 0, 0)), .undef], some [.undef, .int 5],
      some (cells (str "QUI=\n" ++ [0]) ++ [.undef]), none]) := by
  decide +kernel

/-- **C73** Decoding: the text of `l8w8jwt_base64_decode` ends without undefined behaviour. If the specification accepts the
text it stores the decoded data in a new block, the address of the block in `*out` and the number of octets in `*out_length`;
otherwise it returns the code for an invalid argument and leaves no allocation and no length behind. -/
theorem C73_base64_decode_text (env : Env) (fuel d : Nat) (s : Sched) (st : St) (hw : Wf st) (u : Int) (p1 p3 p4 : Val) (l : Bytes)
    (n : Nat) (h1 : Pts globs st.mem p1 (some l)) (h3 : Slot st.mem p3 false) (h4 : Slot st.mem p4 false)
    (h13 : Sep p1 p3) (h34 : Sep p3 p4) (hl : n ≤ l.length) (hn : n + 2 < 2 ^ 64)
    (hs : s.failAlloc st.heap.tick = false) (hf : n + 66 < fuel) :
    ∃ rc st', runFun (cx env fuel (d + 1)) Src.l8w8jwt_base64_decode [.int u, p1, .int n, p3, p4] s st = .ok (.int rc, st') ∧
      Unchanged st.mem st'.mem [p3.blk, p4.blk, some (.heap st.heap.tick)] ∧ st'.stk = st.stk ∧
      match b64Decode (decide (u ≠ 0)) (l.take n) with
      | none => rc = Code.invalidArg ∧ st'.heap.live = st.heap.live ∧ cellAt st'.mem p4 = cellAt st.mem p4
      | some data => rc = Code.success ∧ cellAt st'.mem p3 = some (.ptr (some (.heap st.heap.tick, 0))) ∧
          cellAt st'.mem p4 = some (.int data.length) ∧ Begins st'.mem (.heap st.heap.tick) data ∧
          st'.heap.live = st.heap.tick :: st.heap.live ∧ Wf st' := by
  obtain ⟨o, h', hr, hm⟩ := C05_base64_decode_exact (decide (u ≠ 0)) l n s st.heap hl hs
  have run := base64_decode_text env fuel d s st hw u p1 p3 p4 (some l) n false false h1 h3 h4 h13 h34 (by omega) o h' hr hf
  have hid : ∀ blk, o.out = some (some blk) → blk.id = st.heap.tick ∧ h' = ⟨st.heap.tick + 1, st.heap.tick :: st.heap.live⟩ := by
    intro blk hb
    by_cases h0 : n = 0
    · subst h0
      cases hr
      cases hb
    · rw [base64Decode_eq' _ l n s st.heap hl h0] at hr
      split at hr
      · cases hr; cases hb
      · rw [hs] at hr
        simp only [Bool.false_eq_true, if_false] at hr
        split at hr
        · cases hr; cases hb
        · cases hr; cases hb; exact ⟨rfl, rfl⟩
  refine ⟨(o.rc : Nat), _, run, ?_, rfl, ?_⟩
  · refine ⟨fun b hb => ?_, fun b l hl => ?_⟩
    · simp only [List.mem_cons, List.not_mem_nil, or_false, not_or] at hb
      exact bufMem_ne (fun blk h => (hid blk h).1) hb.1 hb.2.1 (fun h => hb.2.2 (by rw [h]))
    · exact bufMem_len hw h3 h4 (fun blk h => (hid blk h).1) hl
  · cases hd : b64Decode (decide (u ≠ 0)) (l.take n) with
    | none =>
      rw [hd] at hm
      obtain ⟨e1, e2, e3⟩ := hm
      refine ⟨congrArg Nat.cast e1, e3, ?_⟩
      have hout : o.out = none ∨ o.out = some none := by
        rcases ho : o.out with _ | _ | blk
        · exact Or.inl rfl
        · exact Or.inr rfl
        · have := (hid blk ho).2
          rw [this] at e3
          have := congrArg List.length e3
          simp at this
      obtain ⟨k3, b3, o3, c3, rfl, hb3, h3, ho3⟩ := (h3 : ∃ k, Room st.mem p3 (some (k + 1)))
      obtain ⟨k4, b4, o4, c4, rfl, hb4, h4, ho4⟩ := (h4 : ∃ k, Room st.mem p4 (some (k + 1)))
      have hb34 : b3 ≠ b4 := h34.ne
      have : bufMem st.mem (.ptr (some (b3, (o3 : Int)))) (.ptr (some (b4, (o4 : Int)))) 0 o b4 = st.mem b4 := by
        simp only [bufMem, e2, Option.toList, List.map_nil, wr_nil]
        rcases hout with ho | ho <;> rw [ho]
        simp only [newBlk]
        exact wr_ne (by simpa [Val.blk] using hb34.symm)
      simp only [cellAt, this]
    | some data =>
      rw [hd] at hm
      obtain ⟨e1, e2, blk, e3, e4, e5⟩ := hm
      obtain ⟨i1, rfl⟩ := hid blk e3
      obtain ⟨a1, a2, a3, a4, a5, a6⟩ := bufMem_success hw (size := 0) (rc := o.rc) (len := data.length) (blk := blk) h3 h4 h34 i1
        (m := bufMem st.mem p3 p4 0 o) (by rw [← e3, ← e2])
      refine ⟨congrArg Nat.cast e1, a1, a2, ?_, rfl, ⟨a5, a6⟩⟩
      refine ⟨cells (blk.mem.drop data.length) ++ List.replicate (0 - blk.mem.length) .undef, ?_⟩
      show bufMem st.mem p3 p4 0 o _ = _
      rw [a3, ← List.append_assoc, ← cells_append]
      conv => rhs; rw [show data ++ blk.mem.drop data.length = blk.mem.take data.length ++ blk.mem.drop data.length by rw [e4]]
      rw [List.take_append_drop]

example : exRes (runFun (cx toy 80 1) Src.l8w8jwt_base64_decode [.int 1, exPtr 0 0, .int 3, exPtr 1 1, exPtr 2 0] calm (exSt (str "QUI")))
    = some (.int 0, [some (cells (str "QUI")), some [.undef, .ptr (some (.heap 0, 0))], some [.int 2, .undef],
      some (cells (str "AB" ++ List.replicate 14 0)), none]) := by
  decide +kernel
example : exRes (runFun (cx toy 80 1) Src.l8w8jwt_base64_decode [.int 0, exPtr 0 0, .int 4, exPtr 1 1, exPtr 2 0] calm (exSt (str "Q===")))
    = some (.int Code.invalidArg, [some (cells (str "Q===")), some [.undef, .ptr none], some [.undef, .undef], none, none]) := by
  decide +kernel

theorem pts_begins {mem : Blk → Option (List Val)} {i : Nat} {d : Bytes} (h : Begins mem (.heap i) d) :
    ∃ l, Pts globs mem (.ptr (some (.heap i, 0))) (some l) ∧ l.take d.length = d ∧ d.length ≤ l.length := by
  obtain ⟨rest, h⟩ := h
  refine ⟨_, ⟨.heap i, 0, _, rfl, h, by omega, rfl⟩, ?_⟩
  rw [bytesFrom, List.drop_zero, toBytes_cells_append]
  simp

theorem Slot.of_unchanged {mem mem' : Blk → Option (List Val)} {v : Val} (h : Slot mem v false)
    (he : ∀ b l, v.blk = some b → mem b = some l → ∃ l', mem' b = some l' ∧ l'.length = l.length) : Slot mem' v false := by
  obtain ⟨k, b, o, c, rfl, hb, h, ho⟩ := (h : ∃ k, Room mem v (some (k + 1)))
  obtain ⟨l', h1, h2⟩ := he b c rfl h
  exact (⟨k, b, o, l', rfl, hb, h1, by omega⟩ : ∃ k, Room mem' _ (some (k + 1)))

/-- **C73** Both together: encode, and decode the text at `*out`: the data comes back, in another block, and the buffer with the
data is still the same. -/
theorem C73_base64_roundtrip_text (env : Env) (fuel d : Nat) (s : Sched) (st : St) (hw : Wf st) (u : Int) (p1 p3 p4 q3 q4 : Val)
    (l : Bytes) (n : Nat) (h1 : Pts globs st.mem p1 (some l)) (h3 : Slot st.mem p3 false) (h4 : Slot st.mem p4 false)
    (h13 : Sep p1 p3) (h34 : Sep p3 p4) (h3' : Slot st.mem q3 false) (h4' : Slot st.mem q4 false) (h34' : Sep q3 q4)
    (h0 : n ≠ 0) (hl : n ≤ l.length) (hn : n < 2 ^ 62) (hu : u ≠ 0 → 4 * ((n + 2) / 3) ≤ 2147483647)
    (hs : ∀ i, s.failAlloc i = false) (hf : 2 * n + 80 < fuel) :
    ∃ text len st1 st2, runFun (cx env fuel (d + 1)) Src.l8w8jwt_base64_encode [.int u, p1, .int n, p3, p4] s st = .ok (.int 0, st1) ∧
      cellAt st1.mem p3 = some text ∧ cellAt st1.mem p4 = some len ∧
      runFun (cx env fuel (d + 1)) Src.l8w8jwt_base64_decode [.int u, text, len, q3, q4] s st1 = .ok (.int 0, st2) ∧
      ∃ i, cellAt st2.mem q3 = some (.ptr (some (.heap i, 0))) ∧ cellAt st2.mem q4 = some (.int n) ∧ Begins st2.mem (.heap i) (l.take n) ∧
        st2.heap.live = i :: st.heap.tick :: st.heap.live ∧ i ≠ st.heap.tick := by
  obtain ⟨st1, r1, a1, a2, a3, a4, a5, a6, a7⟩ := C73_base64_encode_text env fuel (d + 1) s st hw u p1 p3 p4 l n h1 h3 h4 h13 h34 h0 hl hn hu
    (hs _) (by omega) rfl
  generalize ht : b64Text (decide (u ≠ 0)) (l.take n) = text at *
  have htl : text.length ≤ 2 * n + 8 := by
    have hln : (l.take n).length = n := by rw [List.length_take]; omega
    rw [← ht]
    unfold b64Text
    split
    · rw [b64_length, hln]; omega
    · rw [wrap72_length _ _ (by omega), b64Padded_length, hln]; omega
  obtain ⟨l2, e1, e2, e3⟩ := pts_begins a3
  have e2' : l2.take text.length = text := by
    have := congrArg (List.take text.length) e2
    rw [List.take_take, List.length_append] at this
    rw [Nat.min_eq_left (by omega)] at this
    rw [this]; simp
  have hsep : Sep (.ptr (some (.heap st.heap.tick, 0))) q3 := by
    obtain ⟨k, b, o, c, rfl, hb, h, ho⟩ := (h3' : ∃ k, Room st.mem q3 (some (k + 1)))
    refine Or.inr (Or.inr ?_)
    have := hw.freshOwn h
    simpa [Val.blk] using this.symm
  obtain ⟨rc, st2, r2, b1, b2, b3⟩ := C73_base64_decode_text env fuel d s st1 a7 u _ q3 q4 l2 text.length e1
    (h3'.of_unchanged fun b l _ => a4.2 b l) (h4'.of_unchanged fun b l _ => a4.2 b l) hsep h34'
    (by rw [List.length_append] at e3; omega) (by omega) (hs _) (by omega)
  have hdec : b64Decode (decide (u ≠ 0)) text = some (l.take n) := by
    rw [← ht]
    apply b64Decode_text
    intro h
    have := congrArg List.length h
    rw [List.length_take, List.length_nil] at this
    omega
  rw [e2', hdec] at b3
  obtain ⟨rfl, c1, c2, c3, c4, c5⟩ := b3
  have hln : (l.take n).length = n := by rw [List.length_take]; omega
  rw [hln] at c2
  refine ⟨_, _, st1, st2, r1, a1, a2, r2, st1.heap.tick, c1, c2, c3, by rw [c4, a5], ?_⟩
  obtain ⟨rest, a3⟩ := a3
  have := a7.freshOwn a3
  intro h
  exact this (by rw [h])

theorem out_null {st : St} {p3 p4 : Val} {size : Nat} {o : BufOut} (h3 : p3 = .ptr none ∨ Slot st.mem p3 false) (hlen : o.len = none) (hout : o.out = none ∨ o.out = some none) :
    Unchanged st.mem (bufMem st.mem p3 p4 size o) [p3.blk] := by
  have hb : bufMem st.mem p3 p4 size o = st.mem ∨ bufMem st.mem p3 p4 size o = wr st.mem p3 [.ptr none] := by
    simp only [bufMem, hlen, Option.toList, List.map_nil, wr_nil]
    rcases hout with h | h <;> rw [h]
    · exact Or.inl rfl
    · exact Or.inr rfl
  rcases hb with hb | hb <;> rw [hb]
  · exact ⟨fun _ _ => rfl, fun b l hl => ⟨l, hl, rfl⟩⟩
  · refine ⟨fun b hb => wr_ne fun h => hb (by rw [h]; exact List.mem_singleton.mpr rfl), fun b l hl => ?_⟩
    rcases h3 with rfl | h3
    · exact ⟨l, hl, rfl⟩
    · exact wr_len h3 hl

/-- **C73** The code `l8w8jwt_base64_encode` returns, for all combinations of NULL pointers; and if it is not `success` the only
change to memory is that `*out` may have become NULL. -/
theorem C73_base64_encode_code_text (env : Env) (fuel d : Nat) (s : Sched) (st : St) (hw : Wf st) (u : Int) (p1 p3 p4 : Val)
    (data : Option Bytes) (n : Nat) (outNull lenNull : Bool)
    (h1 : Pts globs st.mem p1 data) (h3 : Slot st.mem p3 outNull) (h4 : Slot st.mem p4 lenNull)
    (h13 : Sep p1 p3) (h34 : Sep p3 p4) (hl : ∀ l, data = some l → n ≤ l.length) (hn : n < 2 ^ 64)
    (hu : u ≠ 0 → n < 2 ^ 62 → 4 * ((n + 2) / 3) ≤ 2147483647) (hf : n < fuel) :
    ∃ rc st', runFun (cx env fuel d) Src.l8w8jwt_base64_encode [.int u, p1, .int n, p3, p4] s st = .ok (.int rc, st') ∧
      rc = b64EncCode (data.isNone || outNull || lenNull) n (s.failAlloc st.heap.tick) ∧
      (rc ≠ Code.success → Unchanged st.mem st'.mem [p3.blk] ∧ st'.heap.live = st.heap.live) := by
  obtain ⟨o, h', hr, e1, e2⟩ := C59_base64_encode_code (decide (u ≠ 0)) data n outNull lenNull s st.heap hn hl
    (fun h => hu (by simpa using h))
  refine ⟨_, _, base64_encode_text env fuel d s st hw u p1 p3 p4 data n outNull lenNull h1 h3 h4 h13 h34 hn o h' hr hf,
    congrArg Nat.cast e1, fun hrc => ?_⟩
  obtain ⟨f1, f2, f3⟩ := e2 (fun h => hrc (congrArg Nat.cast h))
  exact ⟨out_null (by cases outNull; exact Or.inr h3; exact Or.inl h3) f1 f2, f3⟩

/-- **C73** The same for `l8w8jwt_base64_decode`. -/
theorem C73_base64_decode_code_text (env : Env) (fuel d : Nat) (s : Sched) (st : St) (hw : Wf st) (u : Int) (p1 p3 p4 : Val)
    (data : Option Bytes) (n : Nat) (outNull lenNull : Bool)
    (h1 : Pts globs st.mem p1 data) (h3 : Slot st.mem p3 outNull) (h4 : Slot st.mem p4 lenNull)
    (h13 : Sep p1 p3) (h34 : Sep p3 p4) (hl : ∀ l, data = some l → n ≤ l.length) (hn : n + 2 < 2 ^ 64) (hf : n + 66 < fuel) :
    ∃ rc st', runFun (cx env fuel (d + 1)) Src.l8w8jwt_base64_decode [.int u, p1, .int n, p3, p4] s st = .ok (.int rc, st') ∧
      rc = b64DecCode (decide (u ≠ 0)) (data.isNone || outNull || lenNull) ((data.getD []).take n) (s.failAlloc st.heap.tick) ∧
      (rc ≠ Code.success → Unchanged st.mem st'.mem [p3.blk] ∧ st'.heap.live = st.heap.live) := by
  obtain ⟨o, h', hr, e1, e2⟩ := C59_base64_decode_code (decide (u ≠ 0)) data n outNull lenNull s st.heap hl
  refine ⟨_, _, base64_decode_text env fuel d s st hw u p1 p3 p4 data n outNull lenNull h1 h3 h4 h13 h34 hn o h' hr hf,
    congrArg Nat.cast e1, fun hrc => ?_⟩
  obtain ⟨f1, f2, f3⟩ := e2 (fun h => hrc (congrArg Nat.cast h))
  exact ⟨out_null (by cases outNull; exact Or.inr h3; exact Or.inl h3) f1 f2, f3⟩

example : exRes (runFun (cx toy 80 1) Src.l8w8jwt_base64_decode [.int 0, .ptr none, .int 4, exPtr 1 1, exPtr 2 0] calm (exSt (str "QQ==")))
    = some (.int Code.nullArg, [some (cells (str "QQ==")), some [.undef, .undef], some [.undef, .undef], none, none]) := by
  decide +kernel

/-- **C74** The text of `l8w8jwt_hexstr2bin` on any characters: the bytes are stored in the output buffer with a NUL after them,
their number in `*output_length`, and nothing else changes; if the number of characters is odd or the buffer is too small
nothing changes at all. -/
theorem C74_hexstr2bin_text (env : Env) (fuel d : Nat) (s : Sched) (st : St) (hw : Wf st) (p1 p3 : Val) (l : Bytes) (n osz : Nat)
    (b : Blk) (o : Nat) (c : List Val) (h1 : Pts globs st.mem p1 (some l)) (h2 : st.mem b = some c) (hb : b.own = true)
    (ho : o + osz ≤ c.length) (h3 : Slot st.mem p3 false)
    (h12 : Sep p1 (.ptr (some (b, (o : Int))))) (h23 : Sep (.ptr (some (b, (o : Int)))) p3)
    (h0 : n ≠ 0) (hl : n ≤ l.length) (hn : n < 2 ^ 64) (hf : n < fuel) {ds : Bytes}
    (hds : ds = if (l.take n).getLast? = some 0 then l.take (n - 1) else l.take n) :
    ∃ rc st', runFun (cx env fuel d) Src.l8w8jwt_hexstr2bin [p1, .int n, .ptr (some (b, (o : Int))), .int osz, p3] s st = .ok (.int rc, st') ∧
      (ds.length % 2 = 1 → rc = 2 ∧ st' = st) ∧
      (ds.length % 2 = 0 → osz < ds.length / 2 + 1 → rc = 3 ∧ st' = st) ∧
      (ds.length % 2 = 0 → ds.length / 2 + 1 ≤ osz → rc = 0 ∧
        st'.mem b = some (c.take o ++ cells (laxHex env.charSigned ds ++ [0]) ++ c.drop (o + ds.length / 2 + 1)) ∧
        cellAt st'.mem p3 = some (.int (ds.length / 2 : Nat)) ∧ Unchanged st.mem st'.mem [some b, p3.blk] ∧ st'.heap = st.heap) := by
  have hr := C09_hex_exact env.charSigned l n (c.length - o) osz false h0 hl (by omega) hds
  have run := fun o' hr' => hexstr2bin_text env fuel d s st hw p1 (.ptr (some (b, (o : Int)))) p3 (some l) n (some (c.length - o)) osz false
    h1 ⟨b, o, c, rfl, hb, h2, by omega⟩ h3 h12 h23 (by omega) o' hr' hf
  by_cases g1 : ds.length % 2 = 1
  · rw [if_pos g1] at hr
    refine ⟨_, _, run _ hr, fun _ => ⟨rfl, by simp only [wr_nil, cells, List.map_nil, Option.toList]⟩, fun h => absurd h (by omega), fun h => absurd h (by omega)⟩
  rw [if_neg g1] at hr
  by_cases g2 : osz < ds.length / 2 + 1
  · rw [if_pos g2] at hr
    refine ⟨_, _, run _ hr, fun h => absurd h (by omega), fun _ _ => ⟨rfl, by simp only [wr_nil, cells, List.map_nil, Option.toList]⟩, fun _ h => absurd h (by omega)⟩
  rw [if_neg g2] at hr
  refine ⟨_, _, run _ hr, fun h => absurd h (by omega), fun _ h => absurd h (by omega), fun _ _ => ⟨rfl, ?_⟩⟩
  obtain ⟨k3, b3, o3, c3, rfl, hb3, h3, ho3⟩ := (h3 : ∃ k, Room st.mem p3 (some (k + 1)))
  have hne : b ≠ b3 := h23.ne
  have hlen : (cells (laxHex env.charSigned ds ++ [0])).length = ds.length / 2 + 1 := by
    rw [cells_length, List.length_append, laxHex_length]; rfl
  have hmem : wr (wr st.mem (.ptr (some (b, (o : Int)))) (cells (laxHex env.charSigned ds ++ [0]))) (.ptr (some (b3, (o3 : Int)))) [.int (ds.length / 2 : Nat)] =
      upd (upd st.mem b (some (c.take o ++ cells (laxHex env.charSigned ds ++ [0]) ++ c.drop (o + ds.length / 2 + 1)))) b3
        (some (c3.set o3 (.int (ds.length / 2 : Nat)))) := by
    rw [wr_some h2, wr_some (l := c3), poke_one _ (by omega), poke, hlen, Nat.add_assoc]
    rw [upd_ne _ _ hne.symm, h3]
  simp only [Option.toList, List.map_cons, List.map_nil, Bool.false_eq_true, if_false, hmem]
  refine ⟨by rw [upd_ne _ _ hne, upd_same], ?_, ⟨?_, ?_⟩, trivial⟩
  · simp only [cellAt]
    rw [if_pos (by omega), upd_same, Int.toNat_natCast]
    exact get_set (by omega)
  · intro x hx
    simp only [List.mem_cons, List.not_mem_nil, or_false, not_or, Val.blk, Option.some.injEq] at hx
    rw [upd_ne _ _ hx.2, upd_ne _ _ hx.1]
  · intro x lx hx
    by_cases e3 : x = b3
    · subst e3
      cases h3.symm.trans hx
      exact ⟨_, upd_same _ _ _, by simp⟩
    rw [upd_ne _ _ e3]
    by_cases e : x = b
    · subst e
      cases h2.symm.trans hx
      refine ⟨_, upd_same _ _ _, ?_⟩
      rw [List.length_append, List.length_append, hlen, List.length_take, List.length_drop]
      omega
    · rw [upd_ne _ _ e]; exact ⟨lx, hx, rfl⟩

example : exRes (runFun (cx toy 10 0) Src.l8w8jwt_hexstr2bin [exPtr 0 0, .int 2, exPtr 1 0, .int 2, exPtr 2 0] calm (exSt (str "fA")))
    = some (.int 0, [some (cells (str "fA")), some [.int 250, .int 0], some [.int 1, .undef], none, none]) := by
  decide +kernel
example : exRes (runFun (cx toy 10 0) Src.l8w8jwt_hexstr2bin [exPtr 0 0, .int 2, exPtr 1 1, .int 2, exPtr 2 0] calm (exSt (str "fA")))
    = none := by
  decide +kernel

/-- **C74** The text of `l8w8jwt_strncmpic` on two C strings: it changes nothing, and returns 0 if and only if the strings agree up
to case in their first `n` characters and at least one character is compared. -/
theorem C74_strncmpic_text (env : Env) (fuel d : Nat) (s : Sched) (st : St) (hw : Wf st) (p1 p2 : Val) (l1 l2 : Bytes)
    (n : Nat) (h1 : Pts globs st.mem p1 (some l1)) (h2 : Pts globs st.mem p2 (some l2)) (z1 : 0 ∈ l1) (z2 : 0 ∈ l2) (hn : n < 2 ^ 64)
    (hs : ¬ (env.charSigned = true ∧ ReachesHigh (cString l1) (cString l2) n)) (hf : n < fuel) :
    ∃ r, runFun (cx env fuel d) Src.l8w8jwt_strncmpic [p1, p2, .int n] s st = .ok (.int r, st) ∧
      (r = 0 ↔ equalIgnoreCase l1 l2 n ∧ n ≠ 0 ∧ ¬ (cString l1 = [] ∧ cString l2 = [])) := by
  obtain ⟨r, hr, h⟩ := C10_strncmpic_partial env.charSigned l1 l2 n z1 z2 hs
  exact ⟨r, strncmpic_text env fuel d s st hw p1 p2 (some l1) (some l2) n h1 h2 hn r hr hf, h⟩

example : exRes (runFun (cx toy 10 0) Src.l8w8jwt_strncmpic [exPtr 0 0, exPtr 0 4, .int 9] calm (exSt (str "jWt\x00JwT\x00")))
    = some (.int 0, [some (cells (str "jWt\x00JwT\x00")), some [.undef, .undef], some [.undef, .undef], none, none]) := by
  decide +kernel

/-- **C75** The text of src/version.c: the number is 2.3.4 as a decimal number and the string, with its NUL, is written to the
caller's buffer, which must have six bytes. -/
theorem C75_version_text (env : Env) (fuel d : Nat) (s : Sched) (st : St) (hw : Wf st) :
    runFun (cx env fuel d) Src.l8w8jwt_get_version_number [] s st = .ok (.int (2 * 100 + 3 * 10 + 4), st) ∧
    ∀ (b : Blk) (o : Nat) (c : List Val), st.mem b = some c → b.own = true → o + 6 ≤ c.length →
      ∃ st', runFun (cx env fuel d) Src.l8w8jwt_get_version_string [.ptr (some (b, (o : Int)))] s st = .ok (.undef, st') ∧
        st'.mem b = some (c.take o ++ cells (str "2.3.4" ++ [0]) ++ c.drop (o + 6)) ∧ Unchanged st.mem st'.mem [some b] ∧
        st'.heap = st.heap := by
  refine ⟨version_number_text env fuel d s st hw, fun b o c h hb ho => ?_⟩
  refine ⟨_, version_string_text env fuel d s st hw _ (c.length - o) ⟨b, o, c, rfl, hb, h, by omega⟩ (by omega), ?_⟩
  simp only [wr_some h]
  refine ⟨?_, ⟨fun x hx => ?_, fun x lx hx => ?_⟩, trivial⟩
  · rw [upd_same]; rfl
  · exact upd_ne _ _ (fun h => hx (by rw [h]; exact List.mem_singleton.mpr rfl))
  · by_cases e : x = b
    · subst e
      cases h.symm.trans hx
      exact ⟨_, upd_same _ _ _, poke_length (by rw [cells_length]; exact ho)⟩
    · rw [upd_ne _ _ e]; exact ⟨lx, hx, rfl⟩

example : exRes (runFun (cx toy 10 0) Src.l8w8jwt_get_version_string [exPtr 0 1] calm (exSt (str "abcdefgh")))
    = some (.undef, [some (cells (str "a2.3.4\x00h")), some [.undef, .undef], some [.undef, .undef], none, none]) := by
  decide +kernel

end L8w8jwt.C
