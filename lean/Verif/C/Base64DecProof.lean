import Verif.C.Base64EncProof
/-!
# The text of `l8w8jwt_base64_decode` computes what Model/Base64.lean says
-/

namespace L8w8jwt.C

set_option linter.unusedSimpArgs false

open Src

theorem wrap_u8_charVal (cs : Bool) (x : UInt8) : wrap cs .u8 (charVal cs x) = x.toNat := by
  have := x.toNat_lt
  unfold charVal wrap
  simp only [ITy.signed, ITy.modulus, Bool.false_eq_true, if_false]
  split <;> omega

theorem wrap_u8_nat (cs : Bool) (k : Nat) : wrap cs .u8 (k : Int) = (UInt8.ofNat k).toNat := by
  unfold wrap
  simp [ITy.signed, ITy.modulus]

theorem b64Count_append (url : Bool) (a b : Bytes) : b64Count url (a ++ b) = b64Count url a + b64Count url b := by
  induction a with
  | nil => simp [b64Count]
  | cons x t ih => simp only [List.cons_append, b64Count, ih]; omega

theorem dt_eq_sign (url : Bool) : dt url 61 = 0 := by
  rw [dt, dtable, List.getD_eq_getElem?_getD]
  show (List.set _ 61 0)[61]?.getD 0 = 0
  rw [List.getElem?_set]
  split
  · split <;> rfl
  · rename_i h
    exact absurd rfl h

theorem b64Count_signs (url : Bool) (r : Nat) : b64Count url (List.replicate r 61) = r := by
  induction r with
  | zero => rfl
  | succ r ih =>
    rw [List.replicate_succ, b64Count, ih, dt_eq_sign]
    simp
    omega

/-- `memset(p, v, n)` on an object. -/
theorem wp_memset (env : Env) (fuel d : Nat) {b : Blk} {o v n : Int} {s : Sched} {st : St} {l : List Val} {Q : Val → St → Prop}
    (hb : b.own = true) (h : st.mem b = some l) (ho : 0 ≤ o) (hl : o.toNat + n.toNat ≤ l.length)
    (hq : Q (.ptr (some (b, o))) { st with mem := upd st.mem b (some (poke l o.toNat (List.replicate n.toNat (.int (v % 256))))) }) :
    WP ((cx env fuel d).call "memset" [.ptr (some (b, o)), .int v, .int n]) s st Q := by
  rw [cx_lib _ _ _ rfl]
  show WP (do let _ ← writeCells (lctx env) (.ptr (some (b, o))) (List.replicate n.toNat (.int (v % 256))); pure (.ptr (some (b, o)))) s st Q
  refine ⟨_, _, ?_, hq⟩
  simp only [X.bind_apply, writeCells, obj_own hb h, List.length_replicate]
  rw [if_pos ⟨ho, hl⟩, setObj_own hb]
  simp [X.pure_apply, poke]

/-- The table after the first `i` entries. -/
def dtStep (url : Bool) (i : Nat) : Bytes :=
  (List.range i).foldl (fun d i => d.set (tbl url i).toNat (UInt8.ofNat i)) (List.replicate 256 0x80)

theorem cont_tbl (mem : Blk → Option (List Val)) (url : Bool) :
    cont globs mem (.glob (tblName url)) = some (cells (b64Table url ++ [0])) := globs_tbl url

theorem poke_all {l w : List Val} (h : w.length = l.length) : poke l 0 w = w := by
  simp [poke, h]

theorem dtStep_zero (url : Bool) : List.replicate 256 (Val.int (128 % 256)) = cells (dtStep url 0) := by
  show _ = (List.replicate 256 (0x80 : UInt8)).map _
  rw [List.map_replicate]
  rfl

theorem dtStep_succ (url : Bool) (i : Nat) : dtStep url (i + 1) = (dtStep url i).set (tbl url i).toNat (UInt8.ofNat i) := by
  rw [dtStep, List.range_succ, List.foldl_append]
  rfl

theorem dtStep_length (url : Bool) (i : Nat) : (dtStep url i).length = 256 := by
  induction i with
  | zero => exact List.length_replicate
  | succ i ih => rw [dtStep_succ, List.length_set, ih]

theorem dtable_length (url : Bool) : (dtable url).length = 256 := by
  rw [dtable, List.length_set]
  exact dtStep_length url 64

theorem dtable_get (url : Bool) (c : UInt8) : (bytesFrom (cells (dtable url)) 0)[c.toNat]? = some (dt url c) := by
  have := c.toNat_lt
  rw [bytesFrom_cells, List.drop_zero, List.getElem?_eq_getElem (by rw [dtable_length]; exact this), dt,
    List.getD_eq_getElem?_getD, List.getElem?_eq_getElem (by rw [dtable_length]; exact this)]
  rfl

theorem cells_set (b : Bytes) (i : Nat) (x : UInt8) : (cells b).set i (.int x.toNat) = cells (b.set i x) := by
  simp [cells, List.map_set]

theorem Wf.freshStack {st : St} (hw : Wf st) {g : String → Option (List Val)} {b : Blk} {l : List Val}
    (h : cont g st.mem b = some l) {j : Nat} (hj : st.stk ≤ j) : b ≠ .stack j := by
  rintro rfl
  have := hw.stack _ hj
  simp only [cont, this] at h
  cases h

theorem dropStack_stack {k j : Nat} (h : k ≤ j) (m : Blk → Option (List Val)) (x : Option (List Val)) :
    dropStack k (upd m (.stack j) x) = dropStack k m := by
  funext b'
  cases b' with
  | stack i =>
    simp only [dropStack, upd, Blk.stack.injEq]
    by_cases hi : k ≤ i
    · simp [hi]
    · have : ¬ i = j := by omega
      simp [hi, this]
  | _ => simp [dropStack, upd]

/-- An `if` statement whose condition is false. -/
macro "xskip" : tactic => `(tactic| (
  refine wp_merge_same (.next .run) ?_ ?_
  (focus (xs []))
  rw [then_next]
  xi []))


theorem asTy_u8 (cs : Bool) {x : Nat} (h : x < 256) : asTy cs (.int .u8) (.int x) = .ok (.int x) := by
  simp only [asTy]
  rw [wrapr_u8 _ (by omega) (by omega)]

theorem dropStack_none {k : Nat} {m : Blk → Option (List Val)} (h : ∀ j, k ≤ j → m (.stack j) = none) : dropStack k m = m := by
  funext b
  cases b <;> simp only [dropStack]
  split
  · rename_i hj
    exact (h _ hj).symm
  · rfl

/-- src/version.c:25-28 `l8w8jwt_free`, called from a function of the library, frees a live block. -/
theorem wp_l8free (env : Env) (fuel d : Nat) {id : Nat} {s : Sched} {st : St} {Q : Val → St → Prop} (hid : id ∈ st.heap.live)
    (hs : ∀ j, st.stk ≤ j → st.mem (.stack j) = none)
    (hq : Q .undef { st with heap := { st.heap with live := st.heap.live.erase id }, mem := upd st.mem (.heap id) none }) :
    WP ((cx env fuel (d + 1)).call "l8w8jwt_free" [.ptr (some (.heap id, 0))]) s st Q := by
  rw [cx_fun _ _ _ (fn := l8w8jwt_free) rfl]
  apply wp_runFun
  simp only [l8w8jwt_free, Nat.reduceSub, List.replicate, List.append_nil]
  xs []
  rw [cx_lib _ _ _ rfl]
  show WP (xFree (.ptr (some (.heap id, 0)))) s _ _
  unfold WP xFree
  simp only
  rw [if_pos ⟨hid, trivial⟩]
  refine ⟨_, _, rfl, ?_⟩
  rw [return_next]
  have : dropStack st.stk (upd st.mem (.heap id) none) = upd st.mem (.heap id) none := by
    apply dropStack_none
    intro j hj
    rw [upd_ne _ _ (by simp), hs j hj]
  rw [this]
  exact hq

/-- The state of the main loop. -/
def decFr (u : Int) (b1 b3 b4 : Blk) (o1 o3 o4 n k i cnt sk R pad : Nat) (url : Bool) (v12 v15 pos : Val) : List Val :=
  [.int u, .ptr (some (b1, (o1 : Int))), .int n, .ptr (some (b3, (o3 : Int))), .ptr (some (b4, (o4 : Int))),
    .int k, .int i, .int cnt, .ptr (some (.stack sk, 0)), .ptr (some (.glob (tblName url), 0)), .int R, .int pad, v12,
    .ptr (some (.stack (sk + 1), 0)), pos, v15]

/-- How the main loop ends. -/
def DecEnd (TT : Option (Bytes × Nat)) (u : Int) (url : Bool) (b1 b3 b4 : Blk) (o1 o3 o4 n k sk R id S : Nat) (c3 : List Val)
    (M3 : Blk → Option (List Val)) (live : List Nat) (ctl : Ctl) (st' : St) : Prop :=
  ∃ (i' c' p' : Nat) (v12 v15 : Val) (B : List Val), match TT with
    | none => ctl = .ret (.int (L8W8JWT_INVALID_ARG : Nat)) ∧ ∃ pos,
      st' = ⟨decFr u b1 b3 b4 o1 o3 o4 n k i' c' sk R p' url v12 v15 pos, { tick := id + 1, live := live },
        upd (upd (upd M3 (.stack (sk + 1)) (some B)) (.heap id) none) b3 (some (c3.set o3 (.ptr none))), sk + 1 + 1⟩
    | some (W, back) => W.length ≤ S ∧ back ≤ W.length ∧ ctl = .next .run ∧
      st' = ⟨decFr u b1 b3 b4 o1 o3 o4 n k i' c' sk R p' url v12 v15 (.ptr (some (.heap id, ((W.length - back : Nat) : Int)))),
        { tick := id + 1, live := id :: live },
        upd (upd M3 (.stack (sk + 1)) (some B)) (.heap id) (some (poke (List.replicate S (.int 0)) 0 (cells W))), sk + 1 + 1⟩

set_option maxHeartbeats 400000 in
/-- src/base64.c:263-303: the main loop. -/
theorem dec_loop3 (env : Env) (fuel d : Nat) (s : Sched) (u : Int) (url : Bool) (b1 b3 b4 : Blk) (o1 o3 o4 n k sk R id S cnt : Nat)
    (D T : Bytes) (c1 c3 : List Val) (M3 : Blk → Option (List Val)) (live : List Nat) (TT : Option (Bytes × Nat))
    (hDg : ∀ (j : Nat) (x : UInt8), D[j]? = some x → (bytesFrom c1 o1)[j]? = some x) (hDl : D.length = k)
    (hn : k + 2 < 18446744073709551616) (hRlt : R ≤ 2) (hf : k + 66 < fuel)
    (hT : D ++ List.replicate R 61 = T) (hTc : b64Count url T = cnt + R) (hS : cnt / 4 * 3 + 16 = S) (hTT : b64DecLoop url T [] 0 = TT)
    (hld : ∀ B x, cont globs (upd (upd M3 (.stack (sk + 1)) B) (.heap id) x) b3 = some c3)
    (hb3 : b3.own = true) (hc3 : c3[o3]? = some (.ptr (some (.heap id, 0))))
    (hl1' : ∀ B x, cont globs (upd (upd M3 (.stack (sk + 1)) B) (.heap id) x) b1 = some c1)
    (hstk : ∀ j, sk + 1 + 1 ≤ j → M3 (.stack j) = none) (ho3 : o3 < c3.length)
    (hdt' : ∀ B x, cont globs (upd (upd M3 (.stack (sk + 1)) B) (.heap id) x) (.stack sk) = some (cells (dtable url))) :
    WP (exec (cx env fuel (d + 1)) l8w8jwt_base64_decode.loop3 .run) s
      ⟨decFr u b1 b3 b4 o1 o3 o4 n k 0 0 sk R 0 url .undef .undef (.ptr (some (.heap id, 0))), { tick := id + 1, live := id :: live },
        upd (upd M3 (.stack (sk + 1)) (some (List.replicate 4 .undef))) (.heap id) (some (List.replicate S (.int 0))), sk + 1 + 1⟩
      (DecEnd TT u url b1 b3 b4 o1 o3 o4 n k sk R id S c3 M3 live) := by
  have hTl : T.length = k + R := by rw [← hT]; simp [hDl]
  have hbl' : ∀ B x, upd (upd M3 (.stack (sk + 1)) B) (.heap id) x (.stack (sk + 1)) = B := by
    intro B x
    rw [upd_ne _ _ (by simp), upd_same]
  have hst' : ∀ B x B', upd (upd (upd M3 (.stack (sk + 1)) B) (.heap id) x) (.stack (sk + 1)) B' =
      upd (upd M3 (.stack (sk + 1)) B') (.heap id) x := by
    intro B x B'
    rw [upd_comm _ _ _ (by simp), upd_upd]
  unfold l8w8jwt_base64_decode.loop3
  refine wp_loop (fun q st' => ∃ (i : Nat) (w : Bytes) (blk : List Nat) (pad : Nat) (B' : List Val) (v12 v15 : Val)
      (RR : Option (Bytes × Nat)), q = k + R - i ∧ i ≤ k + R ∧ blk.length < 4 ∧ pad ≤ blk.length ∧ blk.length + B'.length = 4 ∧
      (∀ x ∈ blk, x < 256) ∧
      b64DecLoop url (T.drop i) blk pad = RR ∧ TT = RR.map (fun r => (w ++ r.1, r.2)) ∧
      4 * w.length + 3 * blk.length + 3 * b64Count url (T.drop i) = 3 * (cnt + R) ∧
      st' = ⟨decFr u b1 b3 b4 o1 o3 o4 n k i blk.length sk R pad url v12 v15 (.ptr (some (.heap id, (w.length : Int)))),
        { tick := id + 1, live := id :: live },
        upd (upd M3 (.stack (sk + 1)) (some (blk.map (fun (x : Nat) => Val.int x) ++ B'))) (.heap id)
          (some (poke (List.replicate S (.int 0)) 0 (cells w))), sk + 1 + 1⟩) (k + R) ?_ ?_ (by rw [cx_fuel]; omega)
  rotate_left
  · refine ⟨0, [], [], 0, List.replicate 4 .undef, .undef, .undef, _, by omega, by omega, by simp, by simp, by simp, by simp, rfl, ?_, ?_, ?_⟩
    · rw [List.drop_zero, hTT]
      cases TT <;> simp
    · rw [List.drop_zero, hTc]
      simp
    · simp only [cells, List.map_nil, poke_nil, List.nil_append, List.length_nil]
      rfl
  rintro q st' ⟨i, w, blk, pad, B', v12, v15, RR, rfl, hin, hb4l, hpad, hBl, hblk, hRR, hTT2, hsp, rfl⟩
  simp only [decFr]
  by_cases hik : i < k + R
  · obtain ⟨c, hc⟩ : ∃ a, T[i]? = some a := ⟨_, List.getElem?_eq_getElem (by omega)⟩
    rw [drop_cons hc] at hRR hsp
    have bc := c.toNat_lt
    refine wp_merge_same (.int 1) ?_ ?_
    · xs []
      simp only [Val.ofBool]
      rw [decide_eq_true (by omega)]
      simp
    rw [truth_int, Lift_ok, show decide ((1 : Int) ≠ 0) = true from rfl, eq_self, WIf_true, wp_seq]
    refine wp_merge (.next .run) ⟨[.int u, .ptr (some (b1, (o1 : Int))), .int n, .ptr (some (b3, (o3 : Int))), .ptr (some (b4, (o4 : Int))),
        .int k, .int i, .int blk.length, .ptr (some (.stack sk, 0)), .ptr (some (.glob (tblName url), 0)), .int R, .int pad, v12,
        .ptr (some (.stack (sk + 1), 0)), .ptr (some (.heap id, (w.length : Int))), .int c.toNat],
        { tick := id + 1, live := id :: live },
        upd (upd M3 (.stack (sk + 1)) (some (blk.map (fun (x : Nat) => Val.int x) ++ B'))) (.heap id)
          (some (poke (List.replicate S (.int 0)) 0 (cells w))), sk + 1 + 1⟩ ?_ ?_
    · by_cases hik2 : i < k
      · have hcD : D[i]? = some c := by
          rw [← hT, List.getElem?_append_left (by omega)] at hc
          exact hc
        replace hcD := hDg _ _ hcD
        have := bytesFrom_lt hcD
        xs []
        refine wp_paddV (hl1' _ _) (by omega) (by omega) ?_
        refine wp_load_char (hl1' _ _) hcD (by omega) ?_
        xs [cx_cs, wrap_u8_charVal]
      · have hc61 : c = 61 := by
          rw [← hT, List.getElem?_append_right (by omega), List.getElem?_replicate] at hc
          split at hc
          · exact (Option.some.inj hc).symm
          · cases hc
        subst hc61
        xs []
        rfl
    rw [then_next]
    xi []
    refine wp_paddV (hdt' _ _) (by omega) ?_ ?_
    · rw [cells_length, dtable_length]; omega
    refine wp_load_u8 (hdt' _ _) (dtable_get url c) (by omega) ?_
    xi []
    by_cases hdt : dt url c = 128
    · rw [b64DecLoop] at hRR
      simp only [hdt, if_true] at hRR
      rw [hdt, show (((128 : UInt8).toNat : Nat) : Int) = 128 from rfl]
      xs []
      refine ⟨_, ?_, i + 1, w, blk, pad, B', .int 128, .int c.toNat, RR, rfl, by omega, hb4l, hpad, hBl, hblk, hRR, hTT2, ?_, ?_⟩
      · omega
      · rw [b64Count, hdt] at hsp
        simpa using hsp
      xeq
    have hdn : ¬ ((dt url c).toNat : Int) = 128 := by
      intro hc
      apply hdt
      apply UInt8.toNat_inj.mp
      have : (128 : UInt8).toNat = 128 := rfl
      omega
    have hd2 := (dt url c).toNat_lt
    rw [b64Count, if_pos hdt] at hsp
    refine wp_merge_same (.next .run) ?_ ?_
    · xs [hdn]
    rw [then_next]
    xi []
    rw [b64DecLoop] at hRR
    simp only [hdt, if_false] at hRR
    generalize hpad' : (if c = 61 then pad + 1 else pad) = pad' at hRR
    have hpadl : pad' ≤ blk.length + 1 := by rw [← hpad']; split <;> omega
    refine wp_merge (.next .run) ⟨[.int u, .ptr (some (b1, (o1 : Int))), .int n, .ptr (some (b3, (o3 : Int))), .ptr (some (b4, (o4 : Int))),
        .int k, .int i, .int blk.length, .ptr (some (.stack sk, 0)), .ptr (some (.glob (tblName url), 0)), .int R, .int pad',
        .int (dt url c).toNat,
        .ptr (some (.stack (sk + 1), 0)), .ptr (some (.heap id, (w.length : Int))), .int c.toNat],
        { tick := id + 1, live := id :: live },
        upd (upd M3 (.stack (sk + 1)) (some (blk.map (fun (x : Nat) => Val.int x) ++ B'))) (.heap id)
          (some (poke (List.replicate S (.int 0)) 0 (cells w))), sk + 1 + 1⟩ ?_ ?_
    · by_cases hc61 : c = 61
      · subst hc61
        rw [if_pos rfl] at hpad'
        subst hpad'
        rw [show (((61 : UInt8).toNat : Nat) : Int) = 61 from rfl]
        xs []
        xeq
      · rw [if_neg hc61] at hpad'
        subst hpad'
        have hcn : ¬ (c.toNat : Int) = 61 := by
          intro hc
          apply hc61
          apply UInt8.toNat_inj.mp
          have : (61 : UInt8).toNat = 61 := rfl
          omega
        xs [hcn]
    rw [then_next]
    xi []
    refine wp_paddV (l := blk.map (fun (x : Nat) => Val.int x) ++ B') ?_ (by omega) ?_ ?_
    · rw [cont_own rfl]; simp only [hbl']
    · simp; omega
    xi []
    refine wp_storeV (l := blk.map (fun (x : Nat) => Val.int x) ++ B') rfl ?_ (by omega) ?_ rfl ?_
    · simp only [hbl']
    · simp; omega
    obtain ⟨B1, B2, rfl⟩ : ∃ v t, B' = v :: t := by
      cases B' with
      | nil => simp at hBl; omega
      | cons v t => exact ⟨v, t, rfl⟩
    rw [hst', show (blk.map (fun (x : Nat) => Val.int x) ++ B1 :: B2).set (0 + (blk.length : Int)).toNat (.int (dt url c).toNat) =
      (blk ++ [(dt url c).toNat]).map (fun (x : Nat) => Val.int x) ++ B2 by
        rw [Int.zero_add, Int.toNat_natCast, List.set_append_right _ _ (by simp)]
        simp]
    xi []
    simp only [List.length_cons] at hBl
    have hblk' : ∀ x ∈ blk ++ [(dt url c).toNat], x < 256 := by
      intro x hx
      rcases List.mem_append.mp hx with h | h
      · exact hblk x h
      · rw [List.mem_singleton.mp h]
        exact hd2
    by_cases hb3l : blk.length = 3
    rotate_left
    · xs []
      refine ⟨_, ?_, i + 1, w, blk ++ [(dt url c).toNat], pad', B2, .int (dt url c).toNat, .int c.toNat, RR, rfl, by omega, ?_, ?_, ?_, hblk', ?_, hTT2, ?_, ?_⟩
      · omega
      · simp only [List.length_append, List.length_cons, List.length_nil]; omega
      · simp only [List.length_append, List.length_cons, List.length_nil]; omega
      · simp only [List.length_append, List.length_cons, List.length_nil]; omega
      · rw [← hRR]
        match blk, hb3l with
        | [], _ => rfl
        | [_], _ => rfl
        | [_, _], _ => rfl
        | [_, _, _], h => exact absurd rfl h
        | _ :: _ :: _ :: _ :: _, _ => simp at hb4l; omega
      · simp only [List.length_append, List.length_cons, List.length_nil]; omega
      · simp only [List.length_append, List.length_cons, List.length_nil]
        xeq
    obtain ⟨x0, x1, x2, rfl⟩ : ∃ x0 x1 x2, blk = [x0, x1, x2] := by
      match blk, hb3l with
      | [a, b, c], _ => exact ⟨a, b, c, rfl⟩
    generalize (dt url c).toNat = x3 at *
    obtain rfl : B2 = [] := by
      cases B2 with
      | nil => rfl
      | cons a t => simp only [List.length_cons] at hBl; omega
    simp only [List.cons_append, List.nil_append, List.map_cons, List.map_nil, List.append_nil, List.length_cons, List.length_nil] at *
    have y0 : x0 < 256 := hblk' _ (by simp)
    have y1 : x1 < 256 := hblk' _ (by simp)
    have y2 : x2 < 256 := hblk' _ (by simp)
    have hbk : ∀ x, cont globs (upd (upd M3 (.stack (sk + 1)) (some [.int x0, .int x1, .int x2, .int x3])) (.heap id) x) (.stack (sk + 1)) =
        some [.int x0, .int x1, .int x2, .int x3] := by
      intro x
      rw [cont_own rfl, hbl']
    have z0 := Nat.or_lt_two_pow (n := 10) (x := x0 <<< 2) (y := x1 >>> 4) (by omega) (by omega)
    xt []
    refine wp_put (x := UInt8.ofNat (x0 <<< 2 ||| x1 >>> 4)) rfl (upd_same _ _ _) (by rw [List.length_replicate]; omega) ?_ ?_
    · xs []
      refine wp_loadV (hbk _) (v := .int x0) (by omega) rfl (asTy_u8 _ y0) ?_
      xs []
      refine wp_paddV (hbk _) (by omega) (by simp) ?_
      refine wp_loadV (hbk _) (v := .int x1) (by omega) rfl (asTy_u8 _ y1) ?_
      xs [wrap_u8_nat]
    xt [upd_upd]
    refine wp_put (x := UInt8.ofNat (x1 <<< 4 ||| x2 >>> 2)) rfl (upd_same _ _ _) ?_ ?_ ?_
    · simp only [List.length_append, List.length_replicate, List.length_cons, List.length_nil]; omega
    · xs []
      refine wp_paddV (hbk _) (by omega) (by simp) ?_
      refine wp_loadV (hbk _) (v := .int x1) (by omega) rfl (asTy_u8 _ y1) ?_
      xs []
      refine wp_paddV (hbk _) (by omega) (by simp) ?_
      refine wp_loadV (hbk _) (v := .int x2) (by omega) rfl (asTy_u8 _ y2) ?_
      xs [wrap_u8_nat]
    xt [upd_upd]
    refine wp_put (x := UInt8.ofNat (x2 <<< 6 ||| x3)) rfl (upd_same _ _ _) ?_ ?_ ?_
    · simp only [List.length_append, List.length_replicate, List.length_cons, List.length_nil]; omega
    · xs []
      refine wp_paddV (hbk _) (by omega) (by simp) ?_
      refine wp_loadV (hbk _) (v := .int x2) (by omega) rfl (asTy_u8 _ y2) ?_
      xs []
      refine wp_paddV (hbk _) (by omega) (by simp) ?_
      refine wp_loadV (hbk _) (v := .int x3) (by omega) rfl (asTy_u8 _ hd2) ?_
      xs [wrap_u8_nat]
    rw [show (w ++ [UInt8.ofNat (x0 <<< 2 ||| x1 >>> 4)] ++ [UInt8.ofNat (x1 <<< 4 ||| x2 >>> 2)] ++ [UInt8.ofNat (x2 <<< 6 ||| x3)] : Bytes) =
      w ++ [UInt8.ofNat (x0 <<< 2 ||| x1 >>> 4), UInt8.ofNat (x1 <<< 4 ||| x2 >>> 2), UInt8.ofNat (x2 <<< 6 ||| x3)] by simp]
    generalize hO : ([UInt8.ofNat (x0 <<< 2 ||| x1 >>> 4), UInt8.ofNat (x1 <<< 4 ||| x2 >>> 2), UInt8.ofNat (x2 <<< 6 ||| x3)] : Bytes) = O at *
    have hOl : O.length = 3 := by rw [← hO]; rfl
    have hwl : (w ++ O).length = w.length + 3 := by simp [hOl]
    rw [hwl]
    by_cases hp0 : pad' = 0
    · subst hp0
      simp only [if_true] at hRR
      xs [upd_upd]
      refine ⟨_, ?_, i + 1, w ++ O, [], 0, [.int x0, .int x1, .int x2, .int x3], .int x3, .int c.toNat, b64DecLoop url (T.drop (i + 1)) [] 0, rfl, by omega,
        by simp, by simp, by simp, by simp, rfl, ?_, ?_, ?_⟩
      · omega
      · rw [hTT2, ← hRR]
        cases b64DecLoop url (T.drop (i + 1)) [] 0 with
        | none => rfl
        | some r => rw [← hO]; simp
      · rw [hwl]
        simp only [List.length_nil]
        omega
      · simp only [List.map_nil, List.nil_append, List.length_nil, hwl]
        xeq
    rw [if_neg hp0] at hRR
    by_cases hp1 : pad' = 1
    · subst hp1
      simp only [if_true] at hRR
      xs []
      refine wp_paddV (l := poke (List.replicate S (.int 0)) 0 (cells (w ++ O))) ?_ (by omega) ?_ ?_
      · rw [cont_own rfl]; exact upd_same _ _ _
      · rw [poke_length (by rw [cells_length, hwl, List.length_replicate]; omega), List.length_replicate]; omega
      xs [upd_upd]
      rw [hTT2, ← hRR]
      refine ⟨i, 0, 1, .int x3, .int c.toNat, [.int x0, .int x1, .int x2, .int x3], by rw [hwl]; omega, by rw [hwl]; omega, rfl, ?_⟩
      rw [hwl]
      simp only [decFr]
      xeq
    rw [if_neg hp1] at hRR
    by_cases hp2 : pad' = 2
    · subst hp2
      simp only [if_true] at hRR
      xs []
      refine wp_paddV (l := poke (List.replicate S (.int 0)) 0 (cells (w ++ O))) ?_ (by omega) ?_ ?_
      · rw [cont_own rfl]; exact upd_same _ _ _
      · rw [poke_length (by rw [cells_length, hwl, List.length_replicate]; omega), List.length_replicate]; omega
      xs [upd_upd]
      rw [hTT2, ← hRR]
      refine ⟨i, 0, 2, .int x3, .int c.toNat, [.int x0, .int x1, .int x2, .int x3], by rw [hwl]; omega, by rw [hwl]; omega, rfl, ?_⟩
      rw [hwl]
      simp only [decFr]
      xeq
    rw [if_neg hp2] at hRR
    have hp0' : ¬ (pad' : Int) = 0 := by omega
    have hp1' : ¬ (pad' : Int) = 1 := by omega
    have hp2' : ¬ (pad' : Int) = 2 := by omega
    xs [hp0', hp1', hp2', upd_upd]
    refine wp_loadV (hld _ _) (by omega) (by rw [Int.toNat_natCast]; exact hc3) rfl ?_
    xs []
    refine wp_l8free _ _ _ ?_ ?_ ?_
    · simp
    · intro j hj
      have : sk + 1 + 1 ≤ j := hj
      simp only [upd, reduceCtorEq, if_false, Blk.stack.injEq]
      rw [if_neg (by omega)]
      exact hstk j hj
    xs [upd_upd]
    have hm3 : ∀ B x, upd (upd M3 (.stack (sk + 1)) B) (.heap id) x b3 = some c3 := by
      intro B x
      rw [← hld B x, cont_own hb3]
    refine wp_storeV (l := c3) hb3 ?_ (by omega) (by rw [Int.toNat_natCast]; exact ho3) rfl ?_
    · exact hm3 _ _
    xs []
    rw [hTT2, ← hRR]
    refine ⟨i, 0, pad', .int x3, .int c.toNat, [.int x0, .int x1, .int x2, .int x3], rfl, .ptr (some (.heap id, w.length + 3)), ?_⟩
    rw [List.erase_cons_head]
    simp only [decFr]
    xeq
  · obtain rfl : i = k + R := by omega
    rw [drop_nil (by rw [List.getElem?_eq_none_iff]; omega), b64DecLoop] at hRR
    rw [drop_nil (by rw [List.getElem?_eq_none_iff]; omega), b64Count] at hsp
    xs []
    rw [hTT2, ← hRR]
    refine ⟨k + R, blk.length, pad, v12, v15, blk.map (fun (x : Nat) => Val.int x) ++ B', ?_, ?_, rfl, ?_⟩
    rotate_left 2
    · simp only [List.append_nil, Nat.sub_zero]
      rfl
    · simp only [List.append_nil]
      omega
    · simp only [List.append_nil]
      omega
/-- src/base64.c:206-310: the text of `l8w8jwt_base64_decode` computes `base64Decode`. -/
theorem base64_decode_text (env : Env) (fuel d : Nat) (s : Sched) (st : St) (hw : Wf st) (u : Int) (p1 p3 p4 : Val) (m1 : Option Bytes)
    (n : Nat) (outNull lenNull : Bool)
    (h1 : Pts globs st.mem p1 m1) (h3 : Slot st.mem p3 outNull) (h4 : Slot st.mem p4 lenNull)
    (h13 : Sep p1 p3) (h34 : Sep p3 p4)
    (hn : n + 2 < 18446744073709551616) (o : BufOut) (h' : Heap)
    (hr : base64Decode (decide (u ≠ 0)) m1 n outNull lenNull s st.heap = .ok (o, h')) (hf : n + 66 < fuel) :
    runFun (cx env fuel (d + 1)) l8w8jwt_base64_decode [.int u, p1, .int n, p3, p4] s st =
      .ok (.int o.rc, { st with heap := h', mem := bufMem st.mem p3 p4 0 o }) := by
  apply run_of_wp
  apply wp_runFun
  simp only [l8w8jwt_base64_decode, Nat.reduceSub, List.replicate, List.cons_append, List.nil_append]
  cases m1 with
  | none =>
    cases h1
    cases hr
    xs [dropStack_wf hw]
    simp [bufMem, wr_nil]
  | some l1 =>
  obtain ⟨b1, o1, c1, rfl, h1, ho1, hl1⟩ := h1
  cases outNull with
  | true =>
    obtain rfl : p3 = .ptr none := h3
    cases hr
    xs [dropStack_wf hw]
    simp [bufMem, wr_nil]
  | false =>
  obtain ⟨k3, b3, o3, c3, rfl, hb3, h3, ho3⟩ := (h3 : ∃ k, Room st.mem p3 (some (k + 1)))
  cases lenNull with
  | true =>
    obtain rfl : p4 = .ptr none := h4
    cases hr
    xs [dropStack_wf hw]
    simp [bufMem, wr_nil]
  | false =>
  obtain ⟨k4, b4, o4, c4, rfl, hb4, h4, ho4⟩ := (h4 : ∃ k, Room st.mem p4 (some (k + 1)))
  simp only [base64Decode, Bool.or_self, Bool.false_eq_true, if_false] at hr
  split at hr
  · rename_i hn0
    cases hr
    xs [dropStack_wf hw, hn0]
    simp [bufMem, wr_nil]
  rename_i hn0
  cases hrd : rd l1 (n - 1) with
  | error e => simp [hrd, run_bind, M.lift] at hr
  | ok last =>
  rw [hrd, run_bind, run_lift_ok] at hr
  simp only at hr
  have hlast : l1[n - 1]? = some last := by
    unfold rd at hrd
    split at hrd
    · cases hrd; assumption
    · cases hrd
  have hlast' := hlast
  rw [← hl1] at hlast
  have hi1 := bytesFrom_lt hlast
  generalize hil : (if last = 0 then n - 1 else n) = il at hr
  have hle : il ≤ l1.length := by
    have := (List.getElem?_eq_some_iff.mp hlast').1
    split at hil <;> omega
  have hil' : il ≤ n := by split at hil <;> omega
  rw [run_bind, rdN, if_pos hle, run_lift_ok] at hr
  simp only at hr
  generalize hD : l1.take il = D at *
  have hDl : D.length = il := by rw [← hD, List.length_take]; omega
  have hDg : ∀ (j : Nat) (x : UInt8), D[j]? = some x → (bytesFrom c1 o1)[j]? = some x := by
    intro j x hj
    rw [hl1]
    rw [← hD, List.getElem?_take] at hj
    split at hj
    · exact hj
    · cases hj
  have hlen := toBytes_length_le (c1.drop o1)
  rw [← bytesFrom, hl1] at hlen
  simp only [List.length_drop] at hlen
  have hb3t := hw.freshOwn h3
  have hb4t := hw.freshOwn h4
  have hb1t := hw.fresh h1
  have hb13 : b1 ≠ b3 := h13.ne
  have hb34 : b3 ≠ b4 := h34.ne
  have hb1s := fun j hj => hw.freshStack h1 (j := j) hj
  have hb3s := fun j hj => hw.freshStack ((cont_own (g := globs) hb3).trans h3) (j := j) hj
  have hb4s := fun j hj => hw.freshStack ((cont_own (g := globs) hb4).trans h4) (j := j) hj
  generalize hU : (decide (u ≠ 0)) = url at *
  xi []
  xskip
  xskip
  refine wp_merge (.next .run) ⟨[.int u, .ptr (some (b1, (o1 : Int))), .int n, .ptr (some (b3, (o3 : Int))), .ptr (some (b4, (o4 : Int))),
    .int il, .undef, .undef, .undef, .undef, .undef, .undef, .undef, .undef, .undef, .undef], st.heap, st.mem, st.stk⟩ ?_ ?_
  · xs []
    xpadd
    · omega
    · omega
    xs []
    xpadd
    · omega
    · omega
    xbyte hlast
    by_cases hz : last = 0
    · have he : (n : Int) - 1 = il := by simp [hz] at hil; omega
      xs [charVal_eq_zero, cx_cs, hz, he]
    · have he : il = n := by simpa [hz] using hil.symm
      xs [charVal_eq_zero, cx_cs, hz, he]
  rw [then_next]
  xs []
  refine wif_tbl hU ?_
  xs []
  refine wp_memset (b := .stack st.stk) (l := List.replicate 256 .undef) _ _ _ rfl (upd_same _ _ _) (by omega)
    (by rw [List.length_replicate]; exact Nat.le_refl _) ?_
  rw [show Int.toNat 0 = 0 from rfl, show Int.toNat 256 = 256 from rfl, poke_all (by rw [List.length_replicate, List.length_replicate]), dtStep_zero url]
  xs [upd_upd]
  unfold l8w8jwt_base64_decode.loop1
  refine wp_loop (fun q st' => ∃ (k : Nat), q = 64 - k ∧ k ≤ 64 ∧
    st' = ⟨[.int u, .ptr (some (b1, (o1 : Int))), .int _, .ptr (some (b3, (o3 : Int))), .ptr (some (b4, (o4 : Int))), .int il,
      .int k, .int 0, .ptr (some (.stack st.stk, 0)), .ptr (some (.glob (tblName url), 0)), .undef, .undef, .undef, .undef, .undef,
      .undef], st.heap, upd st.mem (.stack st.stk) (some (cells (dtStep url k))), st.stk + 1⟩) 64 ?_
      (by exact ⟨0, by omega, by omega, rfl⟩) (by rw [cx_fuel]; omega)
  rintro q st' ⟨k, rfl, hk, rfl⟩
  by_cases hk64 : k < 64
  · have hg := tbl_get url hk64
    have ht := (tbl url k).toNat_lt
    xs []
    refine wp_paddV (l := cells (b64Table url ++ [0])) (cont_tbl _ url) (by omega) ?_ ?_
    · rw [cells_length, List.length_append, b64Table_length]; simp; omega
    refine wp_load_u8 (l := cells (b64Table url ++ [0])) (cont_tbl _ url) hg (by omega) ?_
    xs []
    refine wp_paddV (l := cells (dtStep url k)) ((cont_own rfl).trans (upd_same _ _ _)) (by omega) ?_ ?_
    · rw [cells_length, dtStep_length]; omega
    xs []
    refine wp_storeV (l := cells (dtStep url k)) rfl (upd_same _ _ _) (by omega) ?_ rfl ?_
    · rw [cells_length, dtStep_length]; omega
    xs [upd_upd]
    refine ⟨_, ?_, k + 1, rfl, by omega, ?_⟩
    · omega
    rw [dtStep_succ, ← cells_set, show ((UInt8.ofNat k).toNat : Int) = k by simp; omega]
    xeq
    simp only [Int.zero_add, Int.toNat_natCast]
  · obtain rfl : k = 64 := by omega
    xs []
    refine wp_paddV (l := cells (dtStep url 64)) ((cont_own rfl).trans (upd_same _ _ _)) (by omega) ?_ ?_
    · rw [cells_length, dtStep_length]; omega
    xs []
    refine wp_storeV (l := cells (dtStep url 64)) rfl (upd_same _ _ _) (by omega) ?_ rfl ?_
    · rw [cells_length, dtStep_length]; omega
    xs [upd_upd]
    rw [show (cells (dtStep url 64)).set (Int.toNat (0 + 61)) (.int 0) = cells (dtable url) from cells_set _ 61 0]
    unfold l8w8jwt_base64_decode.loop2
    generalize hcount : b64Count url D = count at *
    refine wp_loop (fun q st' => ∃ (k cnt : Nat), q = il - k ∧ k ≤ il ∧ cnt + b64Count url (D.drop k) = count ∧ cnt ≤ k ∧
      st' = ⟨[.int u, .ptr (some (b1, (o1 : Int))), .int _, .ptr (some (b3, (o3 : Int))), .ptr (some (b4, (o4 : Int))), .int il,
        .int k, .int cnt, .ptr (some (.stack st.stk, 0)), .ptr (some (.glob (tblName url), 0)), .undef, .undef, .undef, .undef, .undef,
        .undef], st.heap, upd st.mem (.stack st.stk) (some (cells (dtable url))), st.stk + 1⟩) il ?_
        (by exact ⟨0, 0, by omega, by omega, by rw [List.drop_zero, hcount]; omega, by omega, rfl⟩) (by rw [cx_fuel]; omega)
    rintro q st' ⟨k, cnt, rfl, hk, hcnt, hck, rfl⟩
    have hm1 : ∀ x, cont globs (upd st.mem (.stack st.stk) x) b1 = some c1 := by
      intro x
      rw [cont_upd (hb1s _ (Nat.le_refl _)), h1]
    by_cases hki : k < il
    · obtain ⟨a, ha⟩ : ∃ a, D[k]? = some a := ⟨_, List.getElem?_eq_getElem (by omega)⟩
      rw [drop_cons ha, b64Count] at hcnt
      replace ha := hDg _ _ ha
      have hal := bytesFrom_lt ha
      have ba := a.toNat_lt
      xs []
      refine wp_paddV (hm1 _) (by omega) (by omega) ?_
      refine wp_load_char (hm1 _) ha (by omega) ?_
      xs [cx_cs, wrap_u8_charVal]
      refine wp_paddV (l := cells (dtable url)) ((cont_own rfl).trans (upd_same _ _ _)) (by omega) ?_ ?_
      · rw [cells_length, dtable_length]; omega
      refine wp_load_u8 (l := cells (dtable url)) ((cont_own rfl).trans (upd_same _ _ _)) (dtable_get url a) (by omega) ?_
      by_cases hdt : dt url a = 128
      · rw [hdt] at hcnt ⊢
        rw [show (((128 : UInt8).toNat : Nat) : Int) = 128 from rfl]
        xs []
        refine ⟨_, ?_, k + 1, cnt, rfl, by omega, ?_, by omega, ?_⟩
        · omega
        · simpa using hcnt
        xeq
      · have hdn : ¬ ((dt url a).toNat : Int) = 128 := by
          intro hc
          apply hdt
          apply UInt8.toNat_inj.mp
          have : (128 : UInt8).toNat = 128 := rfl
          omega
        xs [hdn]
        refine ⟨_, ?_, k + 1, cnt + 1, rfl, by omega, ?_, by omega, ?_⟩
        · omega
        · rw [if_pos hdt] at hcnt; omega
        xeq
    obtain rfl : k = il := by omega
    rw [drop_nil (by rw [List.getElem?_eq_none_iff]; omega), b64Count, Nat.add_zero] at hcnt
    subst hcnt
    have hmod : (cnt : Int) % 4 = ((cnt % 4 : Nat) : Int) := by omega
    by_cases hbad : (decide (cnt = 0) || decide (cnt % 4 = 1) || (!url && decide (0 < cnt % 4))) = true
    · rw [if_pos hbad] at hr
      cases hr
      by_cases hc0 : cnt = 0
      · xs [hmod, dropStack_stack, dropStack_wf hw]
        simp [bufMem, wr_nil]
      by_cases hc1 : cnt % 4 = 1
      · xs [hmod, dropStack_stack, dropStack_wf hw]
        simp [bufMem, wr_nil]
      have hu0 : u = 0 := by
        simp [hc0, hc1] at hbad
        rw [hbad.1] at hU
        simpa using hU
      have hc2 : 0 < cnt % 4 := by simp [hc0, hc1] at hbad; omega
      xs [hmod, hu0, dropStack_stack, dropStack_wf hw]
      simp [bufMem, wr_nil]
    rw [if_neg hbad] at hr
    have hc0 : cnt ≠ 0 := by
      intro hc
      simp [hc] at hbad
    have hc1 : cnt % 4 ≠ 1 := by
      intro hc
      simp [hc] at hbad
    have hc2 : cnt % 4 = 0 ∨ ¬ u = 0 := by
      simp [hc0, hc1] at hbad
      by_cases hu : u = 0
      · left
        apply hbad
        rw [← hU]
        simpa using hu
      · exact .inr hu
    generalize hR : (if cnt % 4 = 3 then 1 else cnt % 4) = R at hr
    have hRlt : R ≤ 2 := by rw [← hR]; split <;> omega
    xi [hmod]
    refine wp_merge_same (.next .run) ?_ ?_
    · by_cases hu0 : u = 0
      · have hc3 : cnt % 4 = 0 := by
          rcases hc2 with h | h
          · exact h
          · exact absurd hu0 h
        xs [hu0, hc3]
      · xs [hu0]
    rw [then_next]
    xi []
    refine wp_merge (.next .run) ⟨[.int u, .ptr (some (b1, (o1 : Int))), .int n, .ptr (some (b3, (o3 : Int))), .ptr (some (b4, (o4 : Int))),
      .int k, .int k, .int cnt, .ptr (some (.stack st.stk, 0)), .ptr (some (.glob (tblName url), 0)), .int R, .undef, .undef, .undef,
      .undef, .undef], st.heap, upd st.mem (.stack st.stk) (some (cells (dtable url))), st.stk + 1⟩ ?_ ?_
    · by_cases hc3 : cnt % 4 = 3
      · rw [if_pos hc3] at hR
        subst hR
        xs [hc3]
        trivial
      · rw [if_neg hc3] at hR
        subst hR
        have hc3' : ¬ ((cnt % 4 : Nat) : Int) = 3 := by omega
        xs [hc3']
    rw [then_next]
    xs []
    apply wp_calloc
    rw [run_bind] at hr
    simp only [alloc] at hr
    have hSz : ((cnt : Int) / 4 * 3 + 16).toNat * Int.toNat 1 = cnt / 4 * 3 + 16 := by
      rw [show Int.toNat 1 = 1 from rfl]; omega
    rw [hSz]
    generalize hS : cnt / 4 * 3 + 16 = S at *
    split
    · rename_i hfail
      rw [if_pos hfail] at hr
      cases hr
      xs []
      refine wp_storeV (l := c3) hb3 ?_ (by omega) (by omega) rfl ?_
      · exact (upd_ne _ _ (hb3s _ (Nat.le_refl _))).trans h3
      xs []
      refine wp_loadV ((cont_own hb3).trans (upd_same _ _ _)) (v := .ptr none) (by omega) (get_set (by omega)) rfl ?_
      xs [dropStack_upd hw h3, dropStack_stack, dropStack_wf hw]
      simp [bufMem, wr_nil, wr_some h3, poke_one _ (show o3 < c3.length by omega), newBlk, ptrVal]
    rename_i hfail
    rw [if_neg hfail] at hr
    simp only at hr
    generalize hid : st.heap.tick = id at *
    xs []
    refine wp_storeV (l := c3) hb3 ?_ (by omega) (by omega) rfl ?_
    · exact ((upd_ne _ _ hb3t).trans (upd_ne _ _ (hb3s _ (Nat.le_refl _)))).trans h3
    rw [upd_comm _ _ _ hb3t.symm]
    generalize hM : upd (upd st.mem (.stack st.stk) _) b3 _ = M3
    xs []
    have hM3 : M3 b3 = some (c3.set (o3 : Int).toNat (.ptr (some (.heap id, 0)))) := by
      rw [← hM]; exact upd_same _ _ _
    have hM3s : ∀ j, st.stk < j → M3 (.stack j) = none := by
      intro j hj
      rw [← hM, upd_ne _ _ (hb3s _ (by omega)).symm, upd_ne _ _ (by simp only [ne_eq, Blk.stack.injEq]; omega), hw.stack _ (by omega)]
    have hld : ∀ B x, cont globs (upd (upd M3 (.stack (st.stk + 1)) B) (.heap id) x) b3 =
        some (c3.set (o3 : Int).toNat (.ptr (some (.heap id, 0)))) := by
      intro B x
      rw [cont_upd hb3t, cont_upd (hb3s _ (by omega)), cont_own hb3, hM3]
    have hl1' : ∀ B x, cont globs (upd (upd M3 (.stack (st.stk + 1)) B) (.heap id) x) b1 = some c1 := by
      intro B x
      rw [cont_upd hb1t, cont_upd (hb1s _ (by omega)), ← hM, cont_upd hb13, cont_upd (hb1s _ (by omega)), h1]
    have hdt' : ∀ B x, cont globs (upd (upd M3 (.stack (st.stk + 1)) B) (.heap id) x) (.stack st.stk) = some (cells (dtable url)) := by
      intro B x
      rw [cont_upd (by simp), cont_upd (by simp), ← hM, cont_upd (hb3s _ (Nat.le_refl _)).symm, cont_own rfl, upd_same]
    refine wp_loadV ((cont_upd hb3t).trans ((cont_own hb3).trans hM3)) (by omega) (get_set (by omega)) rfl ?_
    xs []
    refine wp_loadV ((cont_upd (hb3s _ (by omega))).trans ((cont_upd hb3t).trans ((cont_own hb3).trans hM3))) (by omega) (get_set (by omega)) rfl ?_
    xs []
    rw [upd_comm _ _ _ (show Blk.heap id ≠ Blk.stack (st.stk + 1) by simp)]
    generalize hT : D ++ List.replicate R 61 = T at *
    have hTc : b64Count url T = cnt + R := by rw [← hT, b64Count_append, b64Count_signs, hcount]
    generalize hTT : b64DecLoop url T [] 0 = TT at *
    refine WP_mono (dec_loop3 env fuel d s u url b1 b3 b4 o1 o3 o4 n k st.stk R id S cnt D T c1 _ M3 st.heap.live TT hDg hDl (by omega) hRlt (by omega)
      hT hTc hS hTT hld hb3 ?_ hl1' (fun j hj => hM3s j (by omega)) ?_ hdt') ?_
    · rw [Int.toNat_natCast]; exact get_set (by omega)
    · rw [List.length_set]; omega
    rintro ctl st' ⟨i', c', p', v12, v15, B, hend⟩
    cases TT with
    | none =>
      obtain ⟨rfl, pos, rfl⟩ := hend
      simp only [run_bind, free, List.mem_cons, true_or, if_true, List.erase_cons_head] at hr
      cases hr
      rw [then_ret, return_ret]
      refine ⟨rfl, ?_⟩
      refine congrArg (fun m => St.mk _ _ m _) ?_
      show dropStack st.stk (upd _ b3 _) = _
      rw [dropStack_upd hw h3, dropStack_heap, dropStack_stack (by omega), ← hM, dropStack_upd hw h3, dropStack_stack (by omega), dropStack_wf hw,
        upd_comm _ _ _ hb3t.symm, upd_upd, upd_self (b := .heap id) (by rw [upd_ne _ _ hb3t.symm]; exact hw.heap _ (by omega))]
      simp [bufMem, wr_nil, wr_some h3, poke_one _ (show o3 < c3.length by omega), newBlk, ptrVal]
    | some WB =>
    obtain ⟨W, back⟩ := WB
    obtain ⟨hW, hback, rfl, rfl⟩ := hend
    simp only [decFr]
    simp only at hr
    rw [if_neg (by omega)] at hr
    cases hr
    xs []
    refine wp_loadV (hld _ _) (by omega) (get_set (by omega)) rfl ?_
    xs [Int.ediv_one]
    refine wp_storeV (l := c4) hb4 ?_ (by omega) (by omega) rfl ?_
    · show upd _ _ _ b4 = _
      rw [upd_ne _ _ hb4t, upd_ne _ _ (hb4s _ (by omega)), ← hM, upd_ne _ _ hb34.symm, upd_ne _ _ (hb4s _ (by omega)), h4]
    xs []
    refine ⟨rfl, ?_⟩
    refine congrArg (fun m => St.mk _ _ m _) ?_
    rw [dropStack_upd hw h4, dropStack_heap, dropStack_stack (by omega), ← hM, dropStack_upd hw h3, dropStack_stack (by omega), dropStack_wf hw]
    simp only [bufMem, ptrVal, newBlk, Option.toList, List.map_cons, List.map_nil, wr_some h3, poke_one _ (show o3 < c3.length by omega), Int.toNat_natCast]
    rw [wr_some (l := c4), poke_one _ (show o4 < c4.length by omega)]
    rotate_left
    · rw [upd_ne _ _ hb4t, upd_ne _ _ hb34.symm, h4]
    rw [show (poke (List.replicate S (.int 0)) 0 (cells W)) = cells (padTo S W) ++ List.replicate (0 - (padTo S W).length) .undef by
      rw [Nat.zero_sub, List.replicate_zero, List.append_nil]
      simp [poke, padTo, cells]]
    rw [show (((W.length - back : Nat) : Int) - 0) = ((W.length - back : Nat) : Int) by omega]

end L8w8jwt.C
