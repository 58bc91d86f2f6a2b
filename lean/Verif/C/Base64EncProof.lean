import Verif.C.Link
import Verif.Model.Base64
import Verif.Proofs.Hoare
/-!
# The text of `l8w8jwt_base64_encode` computes what Model/Base64.lean says
-/

namespace L8w8jwt.C

set_option linter.unusedSimpArgs false

open Src

/-- The alphabet in memory (src/base64.c:112-113). -/
def tblName (url : Bool) : String := if url then "URL_SAFE_TABLE" else "TABLE"

theorem globs_tbl (url : Bool) : globs (tblName url) = some (cells (b64Table url ++ [0])) := by
  cases url <;> rfl

theorem b64Table_length (url : Bool) : (b64Table url).length = 64 := by cases url <;> rfl

theorem tbl_get (url : Bool) {i : Nat} (h : i < 64) : (bytesFrom (cells (b64Table url ++ [0])) 0)[i]? = some (tbl url i) := by
  rw [bytesFrom_cells, List.drop_zero, List.getElem?_append_left (by rw [b64Table_length]; exact h), tbl]
  rw [List.getElem?_eq_getElem (by rw [b64Table_length]; exact h), List.getD_eq_getElem?_getD,
    List.getElem?_eq_getElem (by rw [b64Table_length]; exact h)]
  rfl

/-- `*pos++ = e` -/
theorem wp_put {c : Ctx} {s : Sched} {st : St} {e : Expr} {j id : Nat} {w : Bytes} {L : List Val} {x : UInt8}
    {Q : Val → St → Prop}
    (h6 : st.fr.getD j .undef = .ptr (some (.heap id, (w.length : Int))))
    (hmem : st.mem (.heap id) = some (poke L 0 (cells w))) (hsp : w.length < L.length)
    (he : WP (eval c e) s { st with fr := st.fr.set j (.ptr (some (.heap id, (w.length : Int) + 1))) } fun v st' =>
      v = .int x.toNat ∧ st' = { st with fr := st.fr.set j (.ptr (some (.heap id, (w.length : Int) + 1))) })
    (hq : Q (.int x.toNat) { st with
      fr := st.fr.set j (.ptr (some (.heap id, ((w ++ [x]).length : Int)))),
      mem := upd st.mem (.heap id) (some (poke L 0 (cells (w ++ [x])))) }) :
    WP (eval c (.store (.int .u8) (.post j (.padd 1 (.loc j) (.num 1))) e)) s st Q := by
  xs [h6]
  xpadd
  · omega
  · rw [poke_length (by rw [cells_length]; omega)]; omega
  refine WP_mono he ?_
  rintro v st' ⟨rfl, rfl⟩
  rw [h6]
  refine wp_store_poke (o := 0) rfl hmem (by omega) rfl (by omega) ?_
  simpa using hq

/-- `table[e]` -/
theorem wp_tbl {c : Ctx} {s : Sched} {st : St} {e : Expr} {idx : Nat} {url : Bool} {Q : Val → St → Prop} (hg : c.glob = globs)
    (h10 : st.fr.getD 10 .undef = .ptr (some (.glob (tblName url), 0)))
    (he : WP (eval c e) s st fun v st' => v = .int idx ∧ st' = st) (hi : idx < 64) (hq : Q (.int (tbl url idx).toNat) st) :
    WP (eval c (.load (.int .u8) (.padd 1 (.loc 10) e))) s st Q := by
  xs [h10]
  refine WP_mono he ?_
  rintro v st' ⟨rfl, rfl⟩
  xs [h10]
  refine wp_paddV (l := cells (b64Table url ++ [0])) ?_ ?_ ?_ ?_
  · rw [cont, hg, globs_tbl]
  · omega
  · rw [cells_length, List.length_append, b64Table_length]; simp; omega
  refine wp_load_u8 (l := cells (b64Table url ++ [0])) ?_ (tbl_get url hi) (by omega) hq
  rw [cont, hg, globs_tbl]

/-- Memory after a call that stores a new block of `size` bytes at `p3` and a number at `p4`. -/
def bufMem (mem : Blk → Option (List Val)) (p3 p4 : Val) (size : Nat) (o : BufOut) : Blk → Option (List Val) :=
  wr (match o.out with
    | none => mem
    | some p => newBlk (wr mem p3 [ptrVal p]) p size) p4 (o.len.toList.map fun (k : Nat) => .int k)

/-- `v` points to a cell, or is NULL. -/
def Slot (mem : Blk → Option (List Val)) (v : Val) (null : Bool) : Prop :=
  if null then v = .ptr none else ∃ k, Room mem v (some (k + 1))

theorem get_set {l : List Val} {i : Nat} {v : Val} (h : i < l.length) : (l.set i v)[i]? = some v := by
  simp [h]

theorem wif_tbl {c : Ctx} {s : Sched} {st : St} {Q : Val → St → Prop} {u : Int} {url : Bool} (hu : decide (u ≠ 0) = url)
    (h : Q (.ptr (some (.glob (tblName url), 0))) st) :
    WIf (¬ u = 0) (WP (eval c (.glob "URL_SAFE_TABLE")) s st Q) (WP (eval c (.glob "TABLE")) s st Q) := by
  subst hu
  rw [wp_glob, wp_glob]
  by_cases hu : u = 0
  · exact ⟨fun hc => absurd hu hc, fun _ => by simpa [hu, tblName] using h⟩
  · exact ⟨fun _ => by simpa [hu, tblName] using h, fun hc => absurd hu hc⟩

theorem dropStack_heap (k : Nat) (m : Blk → Option (List Val)) (id : Nat) (x : Option (List Val)) :
    dropStack k (upd m (.heap id) x) = upd (dropStack k m) (.heap id) x := by
  funext b'
  cases b' <;> simp [dropStack, upd]

theorem bufMem_some {st : St} (hw : Wf st) {b3 b4 : Blk} {o3 o4 : Nat} {c3 c4 : List Val} {S id : Nat} {W W' : Bytes} {L : Int} {L' rc : Nat}
    (h3 : st.mem b3 = some c3) (h4 : st.mem b4 = some c4) (ho3 : o3 < c3.length) (ho4 : o4 < c4.length)
    (hb34 : b3 ≠ b4) (hb4t : b4 ≠ .heap id) (hWW : W = W') (hW : W.length ≤ S) (hL : L = L') :
    dropStack st.stk (upd (upd (upd st.mem b3 (some (c3.set o3 (.ptr (some (.heap id, 0)))))) (.heap id)
      (some (poke (List.replicate S .undef) 0 (cells W)))) b4 (some (c4.set o4 (.int L)))) =
    bufMem st.mem (.ptr (some (b3, (o3 : Int)))) (.ptr (some (b4, (o4 : Int)))) S
      { rc := rc, out := some (some { id := id, mem := W' }), len := some L' } := by
  subst hL hWW
  rw [dropStack_upd hw h4, dropStack_heap, dropStack_upd hw h3, dropStack_wf hw, poke_replicate (by rw [cells_length]; exact hW), cells_length]
  simp only [bufMem, ptrVal, newBlk, Option.toList, List.map_cons, List.map_nil, wr_some h3, poke_one _ ho3, Int.toNat_natCast]
  rw [wr_some (l := c4), poke_one _ ho4]
  rw [upd_ne _ _ hb4t, upd_ne _ _ hb34.symm, h4]

/-- One character of output. -/
macro "xemit" i:term "with" t:tacticSeq : tactic => `(tactic| (
  refine wp_put (x := tbl _ $i) rfl (upd_same _ _ _) (by simp only [List.length_append, List.length_replicate, List.length_cons, List.length_nil]; omega)
    (wp_tbl (idx := $i) rfl rfl ?_ ?_ ⟨rfl, rfl⟩) ?_; (focus ($t)); (focus (first | omega | skip)); xt [upd_upd]))

/-- The end of the function: NUL and length. -/
macro "xend" hld:term:max hb4:term:max h4:term:max hM:term:max fin:term:max : tactic => `(tactic| (
  xs [upd_upd]
  refine wp_store_poke (x := 0) (o := 0) rfl (upd_same _ _ _) ?_ rfl ?_ ?_
  · try simp only [List.length_append, List.length_cons, List.length_nil]
    omega
  · simp only [List.length_append, List.length_cons, List.length_nil, List.length_replicate]
    omega
  xs [upd_upd]
  refine wp_loadV ($hld _) (by omega) (get_set (by omega)) rfl ?_
  try simp only [List.length_append, List.length_cons, List.length_nil] at *
  xs [Int.ediv_one]
  refine wp_storeV $hb4 ($h4 _) ?_ ?_ rfl ?_
  · omega
  · omega
  rw [← $hM]
  xs []
  refine ⟨rfl, ?_⟩
  refine congrArg (fun m => St.mk _ _ m _) ($fin ?_ ?_ ?_)
  · simp
  · simp only [List.length_append, List.length_cons, List.length_nil]
    omega
  · try simp
    try omega))

/-- src/base64.c:115-204: the text of `l8w8jwt_base64_encode` computes `base64Encode`. -/
theorem base64_encode_text (env : Env) (fuel d : Nat) (s : Sched) (st : St) (hw : Wf st) (u : Int) (p1 p3 p4 : Val) (m1 : Option Bytes)
    (n : Nat) (outNull lenNull : Bool)
    (h1 : Pts globs st.mem p1 m1) (h3 : Slot st.mem p3 outNull) (h4 : Slot st.mem p4 lenNull)
    (h13 : Sep p1 p3) (h34 : Sep p3 p4)
    (hn : n < 18446744073709551616) (o : BufOut) (h' : Heap)
    (hr : base64Encode (decide (u ≠ 0)) m1 n outNull lenNull s st.heap = .ok (o, h')) (hf : n < fuel) :
    runFun (cx env fuel d) l8w8jwt_base64_encode [.int u, p1, .int n, p3, p4] s st =
      .ok (.int o.rc, { st with heap := h', mem := bufMem st.mem p3 p4 (b64OutSize n) o }) := by
  apply run_of_wp
  apply wp_runFun
  simp only [l8w8jwt_base64_encode, Nat.reduceSub, List.replicate, List.cons_append, List.nil_append]
  cases outNull with
  | true =>
    obtain rfl : p3 = .ptr none := h3
    have : base64Encode (decide (u ≠ 0)) m1 n true lenNull s st.heap = .ok ({ rc := L8W8JWT_NULL_ARG }, st.heap) := by
      unfold base64Encode
      cases m1 <;> rfl
    rw [this] at hr
    cases hr
    xs [dropStack_wf hw]
    simp [bufMem, wr_nil]
  | false =>
  obtain ⟨k3, b3, o3, c3, rfl, hb3, h3, ho3⟩ := (h3 : ∃ k, Room st.mem p3 (some (k + 1)))
  cases m1 with
  | none =>
    cases h1
    cases hr
    xs [dropStack_wf hw]
    simp [bufMem, wr_nil]
  | some l1 =>
  obtain ⟨b1, o1, c1, rfl, h1, ho1, hl1⟩ := h1
  cases lenNull with
  | true =>
    obtain rfl : p4 = .ptr none := h4
    cases hr
    xs [dropStack_wf hw]
    simp [bufMem, wr_nil]
  | false =>
  obtain ⟨k4, b4, o4, c4, rfl, hb4, h4, ho4⟩ := (h4 : ∃ k, Room st.mem p4 (some (k + 1)))
  simp only [base64Encode, Bool.or_self, Bool.false_eq_true, if_false] at hr
  split at hr
  · rename_i hn0
    cases hr
    xs [dropStack_wf hw, hn0]
    simp [bufMem, wr_nil]
  rename_i hn0
  have hsz : (n : Int) * 4 % 18446744073709551616 / 3 + 4 + ((n : Int) * 4 % 18446744073709551616 / 3 + 4) / 72 + 1 = (b64OutSize n : Nat) := by
    simp only [b64OutSize, sizeMod]
    have hx : (n : Int) * 4 % 18446744073709551616 = (n * 4 % 18446744073709551616 : Nat) := by omega
    have hx' : n * 4 % 18446744073709551616 < 18446744073709551616 := by omega
    rw [hx]
    generalize n * 4 % 18446744073709551616 = x at *
    rw [Nat.mod_eq_of_lt (a := x / 3 + 4) (by omega), Nat.mod_eq_of_lt (a := x / 3 + 4 + _) (by omega), Nat.mod_eq_of_lt (by omega)]
    omega
  have hsl : b64OutSize n < 9223372036854775808 := by omega
  generalize hS : b64OutSize n = S at *
  split at hr
  · rename_i hlt
    cases hr
    xs [ovf_mod, hsz, dropStack_wf hw]
    simp [bufMem, wr_nil]
  rename_i hlt
  xs [ovf_mod, hsz]
  apply wp_malloc
  rw [Int.toNat_natCast]
  rw [run_bind] at hr
  simp only [alloc] at hr
  have hb3t := hw.freshOwn h3
  have hb4t := hw.freshOwn h4
  have hb1t := hw.fresh h1
  have hb13 : b1 ≠ b3 := h13.ne
  have hb34 : b3 ≠ b4 := h34.ne
  split
  · rename_i hfail
    rw [if_pos hfail] at hr
    cases hr
    xs []
    refine wp_storeV (l := c3) hb3 ?_ (by omega) (by omega) rfl ?_
    · exact h3
    xs []
    refine wp_loadV ((cont_own hb3).trans (upd_same _ _ _)) (v := .ptr none) (by omega) (get_set (by omega)) rfl ?_
    xs [dropStack_upd hw h3, dropStack_wf hw]
    simp [bufMem, wr_nil, wr_some h3, poke_one _ (show o3 < c3.length by omega), newBlk, ptrVal]
  rename_i hfail
  rw [if_neg hfail] at hr
  simp only at hr
  generalize hid : st.heap.tick = id at *
  have hnl : n ≤ l1.length := by
    apply Classical.byContradiction
    intro hc
    rw [run_bind, rdN, if_neg hc] at hr
    simp [M.lift] at hr
  rw [run_bind, rdN, if_pos hnl, run_lift_ok] at hr
  simp only at hr
  rw [run_bind] at hr
  xs []
  refine wp_storeV (l := c3) hb3 ?_ (by omega) (by omega) rfl ?_
  · exact (upd_ne _ _ hb3t).trans h3
  rw [upd_comm _ _ _ hb3t.symm]
  generalize hM : upd st.mem b3 _ = M3
  generalize hU : (decide (u ≠ 0)) = url at *
  xs []
  have hM3 : M3 b3 = some (c3.set (o3 : Int).toNat (.ptr (some (.heap id, 0)))) := by
    rw [← hM]; exact upd_same _ _ _
  have hld : ∀ x, cont globs (upd M3 (.heap id) x) b3 = some (c3.set (o3 : Int).toNat (.ptr (some (.heap id, 0)))) := by
    intro x
    rw [cont_upd hb3t, cont_own hb3, hM3]
  have hl1' : ∀ x, cont globs (upd M3 (.heap id) x) b1 = some c1 := by
    intro x
    rw [cont_upd hb1t, ← hM, cont_upd hb13, h1]
  refine wp_loadV (hld _) (by omega) (get_set (by omega)) rfl ?_
  xs []
  refine wp_loadV (hld _) (by omega) (get_set (by omega)) rfl ?_
  have hlen := toBytes_length_le (c1.drop o1)
  rw [← bytesFrom, hl1] at hlen
  simp only [List.length_drop] at hlen
  xs []
  refine wp_paddV (hl1' _) (by omega) (by omega) ?_
  xs []
  refine wif_tbl hU ?_
  xs []
  generalize hD : l1.take n = D at *
  have hDl : D.length = n := by rw [← hD, List.length_take]; omega
  have hDg : ∀ (j : Nat) (x : UInt8), D[j]? = some x → (bytesFrom c1 o1)[j]? = some x := by
    intro j x hj
    rw [hl1]
    rw [← hD, List.getElem?_take] at hj
    split at hj
    · exact hj
    · cases hj
  obtain ⟨O, rest, ln, T, sub, ln2, hloop, htail, hfit, rfl, rfl⟩ : ∃ O rest ln T sub ln2, b64EncLoop url D 0 = .ok (O, rest, ln) ∧
      b64EncTail url rest ln = .ok (T, sub, ln2) ∧
      (O ++ T ++ (if ln2 ≠ 0 && !url then [10] else [] : Bytes)).length + 1 ≤ S ∧
      o = { rc := L8W8JWT_SUCCESS, out := some (some { id := id, mem := O ++ T ++ (if ln2 ≠ 0 && !url then [10] else [] : Bytes) ++ [0] }),
            len := some ((O ++ T ++ (if ln2 ≠ 0 && !url then [10] else [] : Bytes)).length - sub) } ∧
      h' = { tick := id + 1, live := id :: st.heap.live } := by
    unfold b64EncBody at hr
    cases hloop : b64EncLoop url D 0 with
    | error e => simp [hloop, bind, Except.bind, M.lift] at hr
    | ok r =>
    obtain ⟨O, rest, ln⟩ := r
    cases htail : b64EncTail url rest ln with
    | error e => simp [hloop, htail, bind, Except.bind, M.lift] at hr
    | ok r =>
    obtain ⟨T, sub, ln2⟩ := r
    simp only [hloop, htail, bind, Except.bind, M.lift] at hr
    by_cases hfit : S < (O ++ T ++ (if ln2 ≠ 0 && !url then [10] else [] : Bytes) ++ [0]).length
    · rw [if_pos hfit] at hr
      cases hr
    rw [if_neg hfit] at hr
    cases hr
    refine ⟨O, rest, ln, T, sub, ln2, rfl, htail, ?_, rfl, rfl⟩
    simp only [List.length_append, List.length_cons, List.length_nil] at hfit ⊢
    omega
  unfold l8w8jwt_base64_encode.loop1
  refine wp_loop (fun q st' => ∃ (i : Nat) (w : Bytes) (line : Nat) (O' : Bytes), q = n - i ∧ i ≤ n ∧
    b64EncLoop url (D.drop i) line = .ok (O', rest, ln) ∧ w ++ O' = O ∧
    st' = ⟨[.int u, .ptr (some (b1, (o1 : Int))), .int n, .ptr (some (b3, (o3 : Int))), .ptr (some (b4, (o4 : Int))), .int S,
      .ptr (some (.heap id, (w.length : Int))), .ptr (some (b1, (o1 : Int) + i)), .ptr (some (b1, (o1 : Int) + n)),
      .int line, .ptr (some (.glob (tblName url), 0)), .undef], { tick := id + 1, live := id :: st.heap.live },
      upd M3 (.heap id) (some (poke (List.replicate S .undef) 0 (cells w))), st.stk⟩) n ?_
      (by
        refine ⟨0, [], 0, O, by omega, by omega, hloop, rfl, ?_⟩
        simp only [cells, List.map_nil, poke_nil]
        simp) (by rw [cx_fuel]; omega)
  rintro q st' ⟨i, w, line, O', rfl, hin, hlp, hO, rfl⟩
  have hOl : (w ++ O').length = O.length := by rw [hO]
  simp only [List.length_append] at hOl hfit
  have hsub : (o1 : Int) + n - (o1 + i) = ((n - i : Nat) : Int) := by omega
  by_cases hi3 : 3 ≤ n - i
  · obtain ⟨a, ha⟩ : ∃ a, D[i]? = some a := ⟨_, List.getElem?_eq_getElem (by omega)⟩
    obtain ⟨b, hb⟩ : ∃ a, D[i + 1]? = some a := ⟨_, List.getElem?_eq_getElem (by omega)⟩
    obtain ⟨c, hc⟩ : ∃ a, D[i + 2]? = some a := ⟨_, List.getElem?_eq_getElem (by omega)⟩
    rw [drop_cons ha, drop_cons hb, drop_cons hc] at hlp
    replace ha := hDg _ _ ha
    replace hb := hDg _ _ hb
    replace hc := hDg _ _ hc
    unfold b64EncLoop at hlp
    simp only at hlp
    split at hlp
    · cases hlp
    rename_i hmax
    simp only [intMax] at hmax
    have ba := a.toNat_lt
    have bb := b.toNat_lt
    have bc := c.toNat_lt
    have i1 : (a.toNat &&& 3) <<< 4 ||| b.toNat >>> 4 < 64 := by
      have := Nat.and_le_right (n := a.toNat) (m := 3)
      exact Nat.or_lt_two_pow (n := 6) (by omega) (by omega)
    have i2 : (b.toNat &&& 15) <<< 2 ||| c.toNat >>> 6 < 64 := by
      have := Nat.and_le_right (n := b.toNat) (m := 15)
      exact Nat.or_lt_two_pow (n := 6) (by omega) (by omega)
    have i3 : c.toNat &&& 63 < 64 := by
      have := Nat.and_le_right (n := c.toNat) (m := 63)
      omega
    have hO4 : 4 ≤ O'.length := by
      split at hlp
      · cases hx : b64EncLoop url (D.drop (i + 1 + 1 + 1)) 0 with
        | error e => simp [hx, bind, Except.bind] at hlp
        | ok r =>
          simp [hx, bind, Except.bind] at hlp
          rw [← hlp.1]
          simp
      · cases hx : b64EncLoop url (D.drop (i + 1 + 1 + 1)) (line + 4) with
        | error e => simp [hx, bind, Except.bind] at hlp
        | ok r =>
          simp [hx, bind, Except.bind] at hlp
          rw [← hlp.1]
          simp
    have m1 := Nat.and_le_right (n := a.toNat) (m := 3)
    have m2 := Nat.and_le_right (n := b.toNat) (m := 15)
    xt [hsub, Int.ediv_one]
    xemit (a.toNat >>> 2) with
      xs []
      refine wp_load_u8 (hl1' _) ha (by omega) ?_
      xs []
    xemit ((a.toNat &&& 3) <<< 4 ||| b.toNat >>> 4) with
      xs []
      refine wp_load_u8 (hl1' _) ha (by omega) ?_
      xs []
      refine wp_paddV (hl1' _) (by omega) (by omega) ?_
      refine wp_load_u8 (hl1' _) hb (by omega) ?_
      xs []
    have hbc2 := bytesFrom_lt hc
    xemit ((b.toNat &&& 15) <<< 2 ||| c.toNat >>> 6) with
      xs []
      refine wp_paddV (hl1' _) (by omega) (by omega) ?_
      refine wp_load_u8 (hl1' _) hb (by omega) ?_
      xs []
      refine wp_paddV (hl1' _) (by omega) (by omega) ?_
      refine wp_load_u8 (hl1' _) hc (by omega) ?_
      xs []
    xemit (c.toNat &&& 63) with
      xs []
      refine wp_paddV (hl1' _) (by omega) (by omega) ?_
      refine wp_load_u8 (hl1' _) hc (by omega) ?_
      xs []
    refine wp_paddV (hl1' _) (by omega) (by omega) ?_
    by_cases hnew : 72 ≤ line + 4 ∧ url = false
    · obtain ⟨h72, rfl⟩ := hnew
      have hu0 : u = 0 := by simpa using hU
      rw [if_pos (by simp [h72])] at hlp
      cases hx : b64EncLoop false (D.drop (i + 1 + 1 + 1)) 0 with
      | error e => simp [hx, bind, Except.bind] at hlp
      | ok r =>
      obtain ⟨O2, r2, l2⟩ := r
      simp only [hx, bind, Except.bind, Except.ok.injEq, Prod.mk.injEq] at hlp
      obtain ⟨rfl, rfl, rfl⟩ := hlp
      simp only [List.length_append, List.length_cons, List.length_nil] at hOl
      xt [hu0]
      refine wp_put (x := 10) rfl (upd_same _ _ _) ?_ ?_ ?_
      · simp only [List.length_append, List.length_replicate, List.length_cons, List.length_nil]; omega
      · xs []
        rfl
      xs [upd_upd]
      refine ⟨_, ?_, i + 3, w ++ [tbl false (a.toNat >>> 2)] ++ [tbl false ((a.toNat &&& 3) <<< 4 ||| b.toNat >>> 4)] ++
            [tbl false ((b.toNat &&& 15) <<< 2 ||| c.toNat >>> 6)] ++ [tbl false (c.toNat &&& 63)] ++ [10], 0, O2, rfl, by omega, hx, ?_, ?_⟩
      rotate_left 2
      · xeq
      · omega
      · rw [← hO]
        simp
    · have hu0 : line + 4 < 72 ∨ ¬ u = 0 := by
        rcases Nat.lt_or_ge (line + 4) 72 with h | h
        · exact .inl h
        · refine .inr fun h0 => hnew ⟨h, ?_⟩
          simpa [h0] using hU.symm
      rw [if_neg (by simpa using hnew)] at hlp
      cases hx : b64EncLoop url (D.drop (i + 1 + 1 + 1)) (line + 4) with
      | error e => simp [hx, bind, Except.bind] at hlp
      | ok r =>
      obtain ⟨O2, r2, l2⟩ := r
      simp only [hx, bind, Except.bind, Except.ok.injEq, Prod.mk.injEq] at hlp
      obtain ⟨rfl, rfl, rfl⟩ := hlp
      have hfin : ∃ k', k' < n - i ∧ ∃ (i' : Nat) (w' : Bytes) (line' : Nat) (O3 : Bytes), k' = n - i' ∧ i' ≤ n ∧
          b64EncLoop url (D.drop i') line' = .ok (O3, r2, l2) ∧ w' ++ O3 = O ∧ i' = i + 3 ∧ line' = line + 4 ∧
          w' = w ++ [tbl url (a.toNat >>> 2)] ++ [tbl url ((a.toNat &&& 3) <<< 4 ||| b.toNat >>> 4)] ++
            [tbl url ((b.toNat &&& 15) <<< 2 ||| c.toNat >>> 6)] ++ [tbl url (c.toNat &&& 63)] := by
        refine ⟨_, ?_, i + 3, _, line + 4, O2, rfl, by omega, hx, ?_, rfl, rfl, rfl⟩
        · omega
        · rw [← hO]; simp
      obtain ⟨k', hk', i', w', line', O3, e1, e2, e3, e4, rfl, rfl, rfl⟩ := hfin
      by_cases h72 : line + 4 < 72
      case' pos => xt []
      case' neg =>
        have hu1 : ¬ u = 0 := by
          rcases hu0 with h | h
          · omega
          · exact h
        xt []
      all_goals
        refine ⟨k', hk', i + 3, _, line + 4, O3, e1, e2, e3, e4, ?_⟩
        xeq
  · have hdl : (D.drop i).length = n - i := by rw [List.length_drop, hDl]
    obtain ⟨rfl, rfl, rfl⟩ : O' = [] ∧ rest = D.drop i ∧ ln = line := by
      match hd : D.drop i, hdl with
      | [], _ => rw [hd] at hlp; simp only [b64EncLoop, Except.ok.injEq, Prod.mk.injEq] at hlp; exact ⟨hlp.1.symm, hlp.2.1.symm, hlp.2.2.symm⟩
      | [_], _ => rw [hd] at hlp; simp only [b64EncLoop, Except.ok.injEq, Prod.mk.injEq] at hlp; exact ⟨hlp.1.symm, hlp.2.1.symm, hlp.2.2.symm⟩
      | [_, _], _ => rw [hd] at hlp; simp only [b64EncLoop, Except.ok.injEq, Prod.mk.injEq] at hlp; exact ⟨hlp.1.symm, hlp.2.1.symm, hlp.2.2.symm⟩
      | _ :: _ :: _ :: _, h => simp at h; omega
    rw [List.append_nil] at hO
    subst hO
    simp only [List.length_nil] at hOl
    have h4' : ∀ x, upd M3 (.heap id) x b4 = some c4 := by
      intro x
      rw [upd_ne _ _ hb4t, ← hM, upd_ne _ _ hb34.symm, h4]
    generalize hNL : (if ln2 ≠ 0 && !url then [10] else [] : Bytes) = NL at *
    match hd : D.drop i, hdl with
    | [], hdl =>
      simp only [List.length_nil] at hdl
      rw [hd] at htail
      simp only [b64EncTail, Except.ok.injEq, Prod.mk.injEq] at htail
      obtain ⟨rfl, rfl, rfl⟩ := htail
      have hz : ((n - i : Nat) : Int) = 0 := by omega
      have hz1 : n - i = 0 := by omega
      cases url with
      | false =>
        have hu0 : u = 0 := by simpa using hU
        by_cases hl0 : ln = 0
        · obtain rfl : NL = [] := by rw [← hNL]; simp [hl0]
          xt [hsub, Int.ediv_one, hz, hu0]
          xend hld hb4 h4' hM (bufMem_some (o3 := o3) (o4 := o4) hw h3 h4 (by omega) (by omega) hb34 hb4t)
        · obtain rfl : NL = [10] := by rw [← hNL]; simp [hl0]
          simp only [List.length_cons, List.length_nil] at hfit
          xt [hsub, Int.ediv_one, hz, hu0]
          refine wp_put (x := 10) rfl (upd_same _ _ _) ?_ ?_ ?_
          · simp only [List.length_append, List.length_replicate, List.length_cons, List.length_nil]; omega
          · xs []
            rfl
          xend hld hb4 h4' hM (bufMem_some (o3 := o3) (o4 := o4) hw h3 h4 (by omega) (by omega) hb34 hb4t)
      | true =>
        have hu0 : ¬ u = 0 := by simpa using hU
        by_cases hl0 : ln = 0
        · obtain rfl : NL = [] := by rw [← hNL]; simp [hl0]
          xt [hsub, Int.ediv_one, hz, hu0]
          xend hld hb4 h4' hM (bufMem_some (o3 := o3) (o4 := o4) hw h3 h4 (by omega) (by omega) hb34 hb4t)
        · obtain rfl : NL = [] := by rw [← hNL]; simp [hl0]
          xt [hsub, Int.ediv_one, hz, hu0]
          xend hld hb4 h4' hM (bufMem_some (o3 := o3) (o4 := o4) hw h3 h4 (by omega) (by omega) hb34 hb4t)
    | [a], hdl =>
      simp only [List.length_cons, List.length_nil] at hdl
      have ha : D[i]? = some a := by rw [← List.head?_drop, hd]; rfl
      replace ha := hDg _ _ ha
      have ba := a.toNat_lt
      rw [hd] at htail
      simp only [b64EncTail] at htail
      split at htail
      · cases htail
      rename_i hmax
      simp only [intMax] at hmax
      simp only [Except.ok.injEq, Prod.mk.injEq] at htail
      obtain ⟨rfl, rfl, rfl⟩ := htail
      simp only [List.length_cons, List.length_nil] at hfit
      have m1 := Nat.and_le_right (n := a.toNat) (m := 3)
      have hz : ((n - i : Nat) : Int) = 1 := by omega
      cases url with
      | false =>
        have hu0 : u = 0 := by simpa using hU
        obtain rfl : NL = [10] := by rw [← hNL]; simp
        simp only [List.length_cons, List.length_nil] at hfit
        xt [hsub, Int.ediv_one, hz, hu0]
        xemit (a.toNat >>> 2) with
          xs []
          refine wp_load_u8 (hl1' _) ha (by omega) ?_
          xs []
        xemit ((a.toNat &&& 3) <<< 4) with
          xs []
          refine wp_load_u8 (hl1' _) ha (by omega) ?_
          xs []
        refine wp_put (x := 61) rfl (upd_same _ _ _) ?_ ?_ ?_
        · simp only [List.length_append, List.length_replicate, List.length_cons, List.length_nil]; omega
        · xs [hu0]
          rfl
        xt [upd_upd, hu0]
        refine wp_put (x := 61) rfl (upd_same _ _ _) ?_ ?_ ?_
        · simp only [List.length_append, List.length_replicate, List.length_cons, List.length_nil]; omega
        · xs [hu0]
          rfl
        xt [upd_upd, hu0]
        refine wp_put (x := 10) rfl (upd_same _ _ _) ?_ ?_ ?_
        · simp only [List.length_append, List.length_replicate, List.length_cons, List.length_nil]; omega
        · xs [hu0]
          rfl
        xend hld hb4 h4' hM (bufMem_some (o3 := o3) (o4 := o4) hw h3 h4 (by omega) (by omega) hb34 hb4t)
      | true =>
        have hu0 : ¬ u = 0 := by simpa using hU
        obtain rfl : NL = [] := by rw [← hNL]; simp
        simp only [List.length_cons, List.length_nil] at hfit
        xt [hsub, Int.ediv_one, hz, hu0]
        xemit (a.toNat >>> 2) with
          xs []
          refine wp_load_u8 (hl1' _) ha (by omega) ?_
          xs []
        xemit ((a.toNat &&& 3) <<< 4) with
          xs []
          refine wp_load_u8 (hl1' _) ha (by omega) ?_
          xs []
        refine wp_put (x := 0) rfl (upd_same _ _ _) ?_ ?_ ?_
        · simp only [List.length_append, List.length_replicate, List.length_cons, List.length_nil]; omega
        · xs [hu0]
          rfl
        xt [upd_upd, hu0]
        refine wp_put (x := 0) rfl (upd_same _ _ _) ?_ ?_ ?_
        · simp only [List.length_append, List.length_replicate, List.length_cons, List.length_nil]; omega
        · xs [hu0]
          rfl
        xt [upd_upd, hu0]
        xend hld hb4 h4' hM (bufMem_some (o3 := o3) (o4 := o4) hw h3 h4 (by omega) (by omega) hb34 hb4t)
    | [a, b], hdl =>
      simp only [List.length_cons, List.length_nil] at hdl
      have ha : D[i]? = some a := by rw [← List.head?_drop, hd]; rfl
      have hb : D[i + 1]? = some b := by rw [← List.head?_drop, ← List.drop_drop, hd]; rfl
      replace ha := hDg _ _ ha
      replace hb := hDg _ _ hb
      have hbb2 := bytesFrom_lt hb
      have ba := a.toNat_lt
      have bb := b.toNat_lt
      rw [hd] at htail
      simp only [b64EncTail] at htail
      split at htail
      · cases htail
      rename_i hmax
      simp only [intMax] at hmax
      simp only [Except.ok.injEq, Prod.mk.injEq] at htail
      obtain ⟨rfl, rfl, rfl⟩ := htail
      simp only [List.length_cons, List.length_nil] at hfit
      have m1 := Nat.and_le_right (n := a.toNat) (m := 3)
      have m2 := Nat.and_le_right (n := b.toNat) (m := 15)
      have i1 : (a.toNat &&& 3) <<< 4 ||| b.toNat >>> 4 < 64 := Nat.or_lt_two_pow (n := 6) (by omega) (by omega)
      have hz : ((n - i : Nat) : Int) = 2 := by omega
      cases url with
      | false =>
        have hu0 : u = 0 := by simpa using hU
        obtain rfl : NL = [10] := by rw [← hNL]; simp
        simp only [List.length_cons, List.length_nil] at hfit
        xt [hsub, Int.ediv_one, hz, hu0]
        xemit (a.toNat >>> 2) with
          xs []
          refine wp_load_u8 (hl1' _) ha (by omega) ?_
          xs []
        xemit ((a.toNat &&& 3) <<< 4 ||| b.toNat >>> 4) with
          xs []
          refine wp_load_u8 (hl1' _) ha (by omega) ?_
          xs []
          refine wp_paddV (hl1' _) (by omega) (by omega) ?_
          refine wp_load_u8 (hl1' _) hb (by omega) ?_
          xs []
        xemit ((b.toNat &&& 15) <<< 2) with
          xs []
          refine wp_paddV (hl1' _) (by omega) (by omega) ?_
          refine wp_load_u8 (hl1' _) hb (by omega) ?_
          xs []
        refine wp_put (x := 61) rfl (upd_same _ _ _) ?_ ?_ ?_
        · simp only [List.length_append, List.length_replicate, List.length_cons, List.length_nil]; omega
        · xs [hu0]
          rfl
        xt [upd_upd, hu0]
        refine wp_put (x := 10) rfl (upd_same _ _ _) ?_ ?_ ?_
        · simp only [List.length_append, List.length_replicate, List.length_cons, List.length_nil]; omega
        · xs [hu0]
          rfl
        xend hld hb4 h4' hM (bufMem_some (o3 := o3) (o4 := o4) hw h3 h4 (by omega) (by omega) hb34 hb4t)
      | true =>
        have hu0 : ¬ u = 0 := by simpa using hU
        obtain rfl : NL = [] := by rw [← hNL]; simp
        simp only [List.length_cons, List.length_nil] at hfit
        xt [hsub, Int.ediv_one, hz, hu0]
        xemit (a.toNat >>> 2) with
          xs []
          refine wp_load_u8 (hl1' _) ha (by omega) ?_
          xs []
        xemit ((a.toNat &&& 3) <<< 4 ||| b.toNat >>> 4) with
          xs []
          refine wp_load_u8 (hl1' _) ha (by omega) ?_
          xs []
          refine wp_paddV (hl1' _) (by omega) (by omega) ?_
          refine wp_load_u8 (hl1' _) hb (by omega) ?_
          xs []
        xemit ((b.toNat &&& 15) <<< 2) with
          xs []
          refine wp_paddV (hl1' _) (by omega) (by omega) ?_
          refine wp_load_u8 (hl1' _) hb (by omega) ?_
          xs []
        refine wp_put (x := 0) rfl (upd_same _ _ _) ?_ ?_ ?_
        · simp only [List.length_append, List.length_replicate, List.length_cons, List.length_nil]; omega
        · xs [hu0]
          rfl
        xt [upd_upd, hu0]
        xend hld hb4 h4' hM (bufMem_some (o3 := o3) (o4 := o4) hw h3 h4 (by omega) (by omega) hb34 hb4t)
    | _ :: _ :: _ :: _, h => simp at h; omega

end L8w8jwt.C
