import Verif.C.Link
import Verif.Model.Util
/-!
# The text of src/util.c computes what Model/Util.lean says
-/

namespace L8w8jwt.C

open Src

/-- src/util.c:60-83: the text of `l8w8jwt_strncmpic` computes `strncmpic` and changes nothing. -/
theorem strncmpic_text (env : Env) (fuel d : Nat) (s : Sched) (st : St) (hw : Wf st) (p1 p2 : Val) (m1 m2 : Option Bytes)
    (n : Nat) (h1 : Pts globs st.mem p1 m1) (h2 : Pts globs st.mem p2 m2) (hn : n < 18446744073709551616) (r : Int)
    (hr : strncmpic env.charSigned m1 m2 n = .ok r) (hf : n < fuel) :
    runFun (cx env fuel d) l8w8jwt_strncmpic [p1, p2, .int n] s st = .ok (.int r, st) := by
  apply run_of_wp
  apply wp_runFun
  simp only [l8w8jwt_strncmpic, Nat.reduceSub, List.replicate, List.cons_append, List.nil_append]
  cases m1 with
  | none =>
    cases h1
    cases hr
    xs [dropStack_wf hw]
  | some l1 =>
  obtain ⟨b1, o1, c1, rfl, h1, ho1, hl1⟩ := h1
  cases m2 with
  | none =>
    cases h2
    cases hr
    xs [dropStack_wf hw]
  | some l2 =>
  obtain ⟨b2, o2, c2, rfl, h2, ho2, hl2⟩ := h2
  xs []
  unfold l8w8jwt_strncmpic.loop1
  refine wp_loop (fun m st' => ∃ (k : Nat) (rr : Int), m = n - k ∧ k ≤ n ∧
    st' = ⟨[.ptr (some (b1, (o1 + k : Nat))), .ptr (some (b2, (o2 + k : Nat))), .int n, .int k, .int rr],
      st.heap, st.mem, st.stk⟩ ∧
    strncmpicLoop env.charSigned (l1.drop k) (l2.drop k) (n - k) rr = .ok r) n ?_
    ⟨0, -1, by simp, by omega, by simp, by simpa [strncmpic] using hr⟩ hf
  rintro m st' ⟨k, rr, rfl, hk, rfl, hloop⟩
  cases e1 : l1[k]? with
  | none => simp [drop_nil e1, strncmpicLoop] at hloop
  | some a =>
  rw [drop_cons e1] at hloop
  simp only [strncmpicLoop] at hloop
  rw [← hl1] at e1
  have hi1 := bytesFrom_lt e1
  xs []
  xbyte e1
  cases e2 : l2[k]? with
  | none =>
    simp only [drop_nil e2] at hloop
    split at hloop
    · cases hloop
    rename_i ha
    split at hloop
    · rename_i hk0
      cases hloop
      xs [dropStack_wf hw, charVal_eq_zero, cx_cs, ha]
    · cases hloop
  | some b =>
  simp only [drop_cons e2] at hloop
  rw [← hl2] at e2
  have hi2 := bytesFrom_lt e2
  split at hloop
  · rename_i hab
    cases hloop
    xs [dropStack_wf hw, charVal_eq_zero, cx_cs, hab]
    xbyte e2
    xs [dropStack_wf hw, charVal_eq_zero, cx_cs, hab]
  rename_i hab
  have hb : a = 0 → b ≠ 0 := fun h h' => hab ⟨h, h'⟩
  cases hnk : n - k with
  | zero =>
    rw [hnk] at hloop
    cases hloop
    by_cases ha : a = 0
    · xs [dropStack_wf hw, charVal_eq_zero, cx_cs, ha]
      xbyte e2
      xs [dropStack_wf hw, charVal_eq_zero, cx_cs, hb ha]
    · xs [dropStack_wf hw, charVal_eq_zero, cx_cs, ha]
  | succ k' =>
  by_cases ha : a = 0
  all_goals xs [dropStack_wf hw, charVal_eq_zero, cx_cs, ha]
  case' pos =>
    xbyte e2
    xs [dropStack_wf hw, charVal_eq_zero, cx_cs, hb ha]
  all_goals
    simp only [hnk] at hloop
    xbyte e1
    xs [dropStack_wf hw, ↓call_tolower, cx_cs]
    cases hx : tolower (charVal env.charSigned a) with
    | error e => simp [hx, bind, Except.bind] at hloop
    | ok x =>
    refine ⟨x, rfl, ?_⟩
    xbyte e2
    xs [dropStack_wf hw, ↓call_tolower, cx_cs]
    cases hy : tolower (charVal env.charSigned b) with
    | error e => simp [hx, hy, bind, Except.bind] at hloop
    | ok y =>
    refine ⟨y, rfl, ?_⟩
    simp only [hx, hy, bind, Except.bind] at hloop
    have h1 := tolower_range hx
    have h2 := tolower_range hy
    by_cases hxy : x - y = 0
    · simp only [hxy, ne_eq, not_true_eq_false, ↓reduceIte] at hloop
      xs [dropStack_wf hw, cx_cs, hxy]
      xpadd
      · omega
      · omega
      xs [dropStack_wf hw]
      xpadd
      · omega
      · omega
      xs [dropStack_wf hw]
      exact ⟨_, by omega, k + 1, 0, rfl, by omega, rfl, by rw [← hloop]; congr 1; omega⟩
    · simp only [ne_eq, hxy, not_false_eq_true, ↓reduceIte] at hloop
      cases hloop
      xs [dropStack_wf hw, cx_cs, hxy]

theorem hexLoop_snoc (cs : Bool) (k : Nat) (d : Bytes) {a b : UInt8} (ha : d[2 * k]? = some a) (hb : d[2 * k + 1]? = some b) :
    hexLoop cs (d.take (2 * (k + 1))) = hexLoop cs (d.take (2 * k)) ++ [hexPair cs a b] := by
  induction k generalizing d with
  | zero =>
    match d with
    | [] => simp at ha
    | [x] => simp at hb
    | x :: y :: t =>
      simp at ha hb
      subst ha hb
      simp [hexLoop]
  | succ k ih =>
    match d with
    | [] => simp at ha
    | [x] => simp at hb
    | x :: y :: t =>
      have h1 : 2 * (k + 1) = 2 * k + 1 + 1 := by omega
      rw [h1] at ha hb
      simp only [List.getElem?_cons_succ] at ha hb
      have h2 : 2 * (k + 1 + 1) = 2 * (k + 1) + 1 + 1 := by omega
      rw [h2, List.take_succ_cons, List.take_succ_cons, hexLoop, ih t ha hb, h1, List.take_succ_cons, List.take_succ_cons, hexLoop]
      rfl

theorem hexLoop_length (cs : Bool) (k : Nat) (d : Bytes) (h : 2 * k ≤ d.length) : (hexLoop cs (d.take (2 * k))).length = k := by
  induction k generalizing d with
  | zero => simp [hexLoop]
  | succ k ih =>
    match d with
    | [] => simp at h
    | [x] => simp at h; omega
    | x :: y :: t =>
      have h1 : 2 * (k + 1) = 2 * k + 1 + 1 := by omega
      rw [h1, List.take_succ_cons, List.take_succ_cons, hexLoop, List.length_cons, ih t (by simp at h; omega)]

theorem tmod_range (a : Int) {b : Int} (hb : 0 < b) : -b < Int.tmod a b ∧ Int.tmod a b < b := by
  have := Int.tmod_lt_of_pos a hb
  have := Int.lt_tmod_of_pos a hb
  omega

theorem hexPair_cell (cs : Bool) (a b : UInt8) :
    ((hexPair cs a b).toNat : Int) = wrap cs .u8 (Int.tmod (Int.tmod (charVal cs a) 32 + 9) 25 * 16 +
      Int.tmod (Int.tmod (charVal cs b) 32 + 9) 25) := by
  simp only [hexPair, wrap, ITy.signed, ITy.modulus]
  simp
  omega

/-- src/util.c:24-58: the text of `l8w8jwt_hexstr2bin` computes `hexstr2bin`. -/
theorem hexstr2bin_text (env : Env) (fuel d : Nat) (s : Sched) (st : St) (hw : Wf st) (p1 p2 p3 : Val) (m1 : Option Bytes)
    (n : Nat) (space : Option Nat) (osz : Nat) (lenNull : Bool)
    (h1 : Pts globs st.mem p1 m1) (h2 : Room st.mem p2 space) (h3 : if lenNull then p3 = .ptr none else ∃ k, Room st.mem p3 (some (k + 1)))
    (h12 : Sep p1 p2) (h23 : Sep p2 p3)
    (hn : n < 18446744073709551616) (o : HexOut)
    (hr : hexstr2bin env.charSigned m1 n space osz lenNull = .ok o) (hf : n < fuel) :
    runFun (cx env fuel d) l8w8jwt_hexstr2bin [p1, .int n, p2, .int osz, p3] s st =
      .ok (.int o.rc, { st with mem := wr (wr st.mem p2 (cells o.written)) p3 (o.len.toList.map fun (k : Nat) => .int k) }) := by
  apply run_of_wp
  apply wp_runFun
  simp only [l8w8jwt_hexstr2bin, Nat.reduceSub, List.replicate, List.cons_append, List.nil_append]
  cases m1 with
  | none =>
    cases h1
    cases hr
    xs [dropStack_wf hw]
    simp [cells, wr_nil]
  | some l1 =>
  obtain ⟨b1, o1, c1, rfl, h1, ho1, hl1⟩ := h1
  cases space with
  | none =>
    cases h2
    cases hr
    xs [dropStack_wf hw]
    simp [cells, wr_nil]
  | some k2 =>
  obtain ⟨b2, o2, c2, rfl, hb2, h2, ho2⟩ := h2
  simp only [hexstr2bin] at hr
  split at hr
  · rename_i hn0
    cases hr
    xs [dropStack_wf hw, hn0]
    simp [cells, wr_nil]
  rename_i hn0
  cases hrd : rd l1 (n - 1) with
  | error e => simp [hrd, bind, Except.bind] at hr
  | ok last =>
  simp only [hrd, bind, Except.bind] at hr
  have hlast : l1[n - 1]? = some last := by
    unfold rd at hrd
    split at hrd
    · cases hrd; assumption
    · cases hrd
  have hlast' := hlast
  rw [← hl1] at hlast
  have hi1 := bytesFrom_lt hlast
  xs []
  xpadd
  · omega
  · omega
  xbyte hlast
  generalize hhl : (if last ≠ 0 then n else n - 1) = hl at hr
  have hhl' : hl < 18446744073709551616 := by split at hhl <;> omega
  have hle : hl ≤ l1.length := by
    have := (List.getElem?_eq_some_iff.mp hlast').1
    split at hhl <;> omega
  have hbb : b1 ≠ b2 := h12.ne
  have hcont : ∀ x, cont globs (upd st.mem b2 x) b1 = some c1 := by
    intro x
    rw [← h1]
    cases b1 <;> simp_all [cont, upd]
  by_cases hz : last = 0
  case' pos =>
    have he : (n : Int) - 1 = hl := by simp [hz] at hhl; omega
    xs [charVal_eq_zero, cx_cs, hz, he]
  case' neg =>
    have he : hl = n := by simpa [hz] using hhl.symm
    subst he
    xs [charVal_eq_zero, cx_cs, hz]
  all_goals
    split at hr
    · rename_i h2
      cases hr
      xs [dropStack_wf hw]
      simp [cells, wr_nil]
    rename_i hmod
    split at hr
    · rename_i h2
      cases hr
      xs [dropStack_wf hw]
      simp [cells, wr_nil]
    rename_i hosz
    rw [show rdN l1 hl = .ok (l1.take hl) by simp [rdN, hle]] at hr
    simp only at hr
    split at hr
    · cases hr
    rename_i hsp
    obtain ⟨m, rfl⟩ : ∃ m, hl = 2 * m := ⟨hl / 2, by omega⟩
    have hdiv : 2 * m / 2 = m := by omega
    have hwl := hexLoop_length env.charSigned m l1 hle
    simp only [List.length_append, hwl, List.length_cons, List.length_nil] at hsp
    have h6 : ((2 * m : Nat) : Int) / 2 = m := by omega
    xs [h6]
    unfold l8w8jwt_hexstr2bin.loop1
    refine wp_loop (fun q st' => ∃ (k : Nat) (x : Int), q = m - k ∧ k ≤ m ∧
      st' = ⟨[.ptr (some (b1, (o1 : Int))), .int x, .ptr (some (b2, (o2 : Int))), .int osz, p3, .int ((2 * m : Nat) : Int),
        .int m, .int ((2 * k : Nat) : Int), .int k], st.heap,
        upd st.mem b2 (some (poke c2 o2 (cells (hexLoop env.charSigned (l1.take (2 * k)))))), st.stk⟩) m ?_ 
        (by
          refine ⟨0, ?_, by omega, by omega, ?_⟩
          rotate_left
          · simp only [Nat.mul_zero, List.take_zero, hexLoop, cells, List.map_nil, poke_nil, upd_self h2]
            rfl) (by rw [cx_fuel]; omega)
    rintro q st' ⟨k, x, rfl, hk, rfl⟩
    have hkl := hexLoop_length env.charSigned k l1 (by omega)
    by_cases hkm : k < m
    · obtain ⟨a, ha⟩ : ∃ a, l1[2 * k]? = some a := ⟨_, List.getElem?_eq_getElem (by omega)⟩
      obtain ⟨b, hb⟩ : ∃ b, l1[2 * k + 1]? = some b := ⟨_, List.getElem?_eq_getElem (by omega)⟩
      have hsn := hexLoop_snoc env.charSigned k l1 ha hb
      rw [← hl1] at ha hb
      have hla := bytesFrom_lt ha
      have hlb := bytesFrom_lt hb
      xs []
      xpadd
      · omega
      · rw [poke_length (by rw [cells_length]; omega)]; omega
      xs []
      refine wp_paddV (hcont _) ?_ ?_ ?_
      · omega
      · omega
      refine wp_load_char (hcont _) ha (by omega) ?_
      have ra := tmod_range (charVal env.charSigned a) (b := 32) (by omega)
      have ra' := tmod_range (Int.tmod (charVal env.charSigned a) 32 + 9) (b := 25) (by omega)
      have rb := tmod_range (charVal env.charSigned b) (b := 32) (by omega)
      have rb' := tmod_range (Int.tmod (charVal env.charSigned b) 32 + 9) (b := 25) (by omega)
      xs [arith_tmod, cx_cs]
      refine wp_paddV (hcont _) ?_ ?_ ?_
      · omega
      · omega
      refine wp_load_char (hcont _) hb (by omega) ?_
      xs [arith_tmod, cx_cs, ← hexPair_cell]
      apply wp_store_poke hb2 (upd_same _ _ _) (by omega) rfl (by omega)
      xs [cx_cs, upd_upd]
      refine ⟨_, by omega, k + 1, x, rfl, by omega, ?_⟩
      rw [hsn]
      xeq
    · obtain rfl : k = m := by omega
      xs []
      xpadd
      · omega
      · rw [poke_length (by rw [cells_length]; omega)]; omega
      xs []
      apply wp_store_poke (x := 0) hb2 (upd_same _ _ _) (by omega) rfl (by omega)
      cases hr
      cases lenNull with
      | true =>
        obtain rfl : p3 = .ptr none := h3
        xs [upd_upd, dropStack_upd hw h2, dropStack_wf hw]
        simp [wr_nil, wr_some h2]
      | false =>
        obtain ⟨k3, b3, o3, c3, rfl, hb3, h3, ho3⟩ := (h3 : ∃ k, Room st.mem p3 (some (k + 1)))
        have hb : b3 ≠ b2 := h23.ne.symm
        have h3' : ∀ x, upd st.mem b2 x b3 = some c3 := by
          intro x
          rw [upd_ne _ _ hb, h3]
        xs [upd_upd]
        refine wp_storeV hb3 (h3' _) (by omega) (by omega) rfl ?_
        xs [dropStack_upd hw h2, dropStack_upd hw h3, dropStack_wf hw]
        simp [wr_some h2, wr_some (h3' _), poke_one _ (show o3 < c3.length by omega)]

end L8w8jwt.C
