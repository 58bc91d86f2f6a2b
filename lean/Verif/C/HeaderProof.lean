import Verif.C.HeaderPay
/-!
# The text of write_header_and_payload (src/encode.c:75-216)
-/

namespace L8w8jwt.C
open L8w8jwt L8w8jwt.C.Src

def segPush : Stmt := pushE 0 (.load .ptr (.loc 4)) (.load (.int .u64) (.loc 5))

def segFree : Stmt := .exp (.call "l8w8jwt_free" (.cons (.load .ptr (.loc 4)) .nil))

theorem headerAndPayload_body : write_header_and_payload.body =
    .seq (.decl 2) (.seq (.declMem 3 5 [] .undef)
      (.seq (.exp (.set 2 (.call "chillbuff_init" (.cons (.loc 3) (.cons (.num 256) (.cons (.num 1) (.cons (.num 1) .nil)))))))
      (.seq (.ite (.cmp .ne (.loc 2) (.num 0)) (.ret (.num 300)) .skip) (.seq algSwitch (.seq headClaims (.seq (pushE 3 (.str [125]) (.num 1))
      (.seq (.declMem 4 1 [] .undef) (.seq (.declMem 5 1 [] .undef) (.seq b64Call (.seq b64Fail (.seq segPush
      (.seq (.exp (.call "chillbuff_clear" (.cons (.loc 3) .nil))) (.seq segFree (.seq (.exp (.store .ptr (.loc 4) .null))
      (regStmt (payStmt (.seq b64Call (.seq b64Fail (.seq (pushE 0 (.str [46]) (.num 1)) (.seq segPush (.seq segFree
      (.seq (.exp (.call "chillbuff_free" (.cons (.loc 3) .nil))) (.ret (.num 0)))))))))))))))))))))))) := rfl

section
variable {m0 : Blk → Option (List Val)} {k t0 : Nat} {B : Blk} {bid : Nat} {sg : Option (Nat × List Val)} {sb buf : Bytes}
  {ex : List (List Val)} {heap : Heap} {mem : Blk → Option (List Val)} {fr : List Val} {stk : Nat} {s : Sched}

theorem HP.wpSegPush (env : Env) (fuel d : Nat) {i len : Nat} {m : Bytes} {l : List Val} {ex' : List (List Val)} {sb' : Bytes} {h' : Heap}
    (hH : HP m0 k t0 B bid (some (i, cells m ++ l)) sb buf ([.ptr (some (.heap i, 0))] :: [.int len] :: ex') heap mem) (hi : t0 < i)
    (hl : len ≤ m.length) (hlen : len < 18446744073709551616) (hr : push 1024 sb (m.take len) s heap = .ok (sb', h')) {f1 f2 f3 : Val} {rest : List Val}
    {K : Stmt} {Q : Ctl → St → Prop}
    (hq : ∀ mem', HP m0 k t0 B bid (some (i, cells m ++ l)) sb' buf ([.ptr (some (.heap i, 0))] :: [.int len] :: ex') h' mem' →
      WP (exec (cx env fuel d) K .run) s ⟨.ptr (some (B, 0)) :: f1 :: f2 :: f3 :: .ptr (some (.stack (k + 1), 0)) :: .ptr (some (.stack (k + 2), 0)) :: rest,
        h', mem', stk⟩ Q) :
    WP (exec (cx env fuel d) (.seq segPush K) .run) s
      ⟨.ptr (some (B, 0)) :: f1 :: f2 :: f3 :: .ptr (some (.stack (k + 1), 0)) :: .ptr (some (.stack (k + 2), 0)) :: rest, heap, mem, stk⟩ Q := by
  have h4 : cont globs mem (.stack (k + 1)) = some [.ptr (some (.heap i, 0))] := (cont_own rfl).trans (hH.exAt (i := 0) rfl)
  have h5 : cont globs mem (.stack (k + 2)) = some [.int len] := (cont_own rfl).trans (hH.exAt (i := 1) rfl)
  have hs : mem (.heap i) = some (cells m ++ l) := by rw [hH.hp i hi]; simp [segAt]
  rw [wp_seq]
  unfold segPush pushE
  xi []
  refine wp_loadV (c := cx env fuel d) (by exact h4) (by omega) (by rfl) rfl ?_
  xi []
  refine wp_loadV (c := cx env fuel d) (by exact h5) (by omega) (by rfl) (asTy_u64 _ hlen) ?_
  xi []
  refine hH.wpPushSb env fuel d (m := m ++ toBytes l) (n := len) ⟨.heap i, 0, cells m ++ l, rfl, (cont_own rfl).trans hs, Nat.zero_le _, ?_⟩
    (by simp; omega) (by rw [List.take_append_of_le_length hl]; exact hr) ?_
  · rw [bytesFrom, List.drop_zero, toBytes_cells_append]
  intro v mem' hH'
  exact hq mem' hH'

theorem HP.wpSegFree (env : Env) (fuel d : Nat) {i : Nat} {m : List Val} {v5 : List Val} {ex' : List (List Val)}
    (hH : HP m0 k t0 B bid (some (i, m)) sb buf ([.ptr (some (.heap i, 0))] :: v5 :: ex') heap mem) (hi : t0 < i) (hl : i ∈ heap.live)
    (hstk : stk = k + 1 + (ex'.length + 2)) {f0 f1 f2 f3 : Val} {rest : List Val} {K : Stmt} {Q : Ctl → St → Prop}
    (hq : ∀ mem', HP m0 k t0 B bid none sb buf ([.ptr (some (.heap i, 0))] :: v5 :: ex') { heap with live := heap.live.erase i } mem' →
      WP (exec (cx env fuel (d + 1)) K .run) s ⟨f0 :: f1 :: f2 :: f3 :: .ptr (some (.stack (k + 1), 0)) :: rest,
        { heap with live := heap.live.erase i }, mem', stk⟩ Q) :
    WP (exec (cx env fuel (d + 1)) (.seq segFree K) .run) s ⟨f0 :: f1 :: f2 :: f3 :: .ptr (some (.stack (k + 1), 0)) :: rest, heap, mem, stk⟩ Q := by
  subst hstk
  have h4 : cont globs mem (.stack (k + 1)) = some [.ptr (some (.heap i, 0))] := (cont_own rfl).trans (hH.exAt (i := 0) rfl)
  rw [wp_seq]
  unfold segFree
  xi []
  refine wp_loadV (c := cx env fuel (d + 1)) (by exact h4) (by omega) (by rfl) rfl ?_
  xi []
  refine wp_l8freeP env fuel d (P := some ⟨i, []⟩) (h' := { heap with live := heap.live.erase i }) (by simp [L8w8jwt.free, hl]) ?_ ?_
  · exact (hH.wf []).stack
  xi []
  exact hq _ (hH.free hi)

end

theorem pre_step {c : Prop} [Decidable c] {a e : Bytes} {m n : Nat} {r : Option (Bytes × Nat)} (hm : m ≤ 56) (hr : r = some (e, n) → n ≤ 56)
    (h : (if c then some (a, m) else r) = some (e, n)) : n ≤ 56 := by
  split at h
  · cases h; exact hm
  · exact hr h

theorem headerPrefix_le {alg : Int} {e : Bytes} {n : Nat} : headerPrefix alg = some (e, n) → n ≤ 56 := by
  unfold headerPrefix
  iterate 14 refine pre_step (by omega) ?_
  intro h
  cases h

/-- The end of a call. -/
theorem HEnd.frame {st : St} (hw : Wf st) {B : Blk} {bid : Nat} {sb : Bytes} {mem : Blk → Option (List Val)} (h : HEnd st.mem st.stk B bid sb mem) :
    BufAt (dropStack st.stk mem) B bid 1024 sb ∧ Frame st.mem (dropStack st.stk mem) B bid := by
  constructor
  · obtain ⟨g1, g2, g3, ⟨g, g4⟩, rest, g5⟩ := h.sbA
    exact ⟨g1, g2, g3, ⟨g, by rw [dropStack_ne _ _ h.Bs]; exact g4⟩, rest, by rw [dropStack_ne _ _ (by simp)]; exact g5⟩
  · intro x h1 h2
    by_cases hx : ∃ j, st.stk ≤ j ∧ x = .stack j
    · obtain ⟨j, hj, rfl⟩ := hx
      rw [dropStack_lt _ _ _ hj, hw.stack j hj]
    · have hx' : ∀ j, st.stk ≤ j → x ≠ .stack j := fun j hj e => hx ⟨j, hj, e⟩
      rw [dropStack_ne _ _ hx']
      exact h.old x h1 h2 hx'

/-- src/encode.c:75-216: the text of `write_header_and_payload`: return code, content of the builder and state of the allocator are those
of the model; nothing else in memory changes. -/
theorem header_and_payload_text (env : Env) (fuel d : Nat) (s : Sched) (st : St) (hw : Wf st) (B P : Blk) (bid : Nat) (sb : Bytes) (p : EncParams)
    (w : EncPtrs) (base : Blk → Option (List Val)) (hB : BufAt st.mem B bid 1024 sb) (hb : Base base st.mem st.stk st.heap.tick B bid)
    (hE : EncAt base P p w) (hF : Fits fuel p) (rc : Nat) (sb' : Bytes) (h' : Heap)
    (hr : writeHeaderAndPayload env sb p s st.heap = .ok ((rc, sb'), h')) :
    ∃ mem', runFun (cx env fuel (d + 2)) write_header_and_payload [.ptr (some (B, 0)), .ptr (some (P, 0))] s st =
        .ok (.int rc, { st with heap := h', mem := mem' }) ∧ BufAt mem' B bid 1024 sb' ∧ Frame st.mem mem' B bid := by
  suffices hWP : WP (runFun (cx env fuel (d + 2)) write_header_and_payload [.ptr (some (B, 0)), .ptr (some (P, 0))]) s st (fun v st' =>
      v = .int rc ∧ ∃ mem', st' = { st with heap := h', mem := mem' } ∧ BufAt mem' B bid 1024 sb' ∧ Frame st.mem mem' B bid) by
    obtain ⟨v, st', e, rfl, mem', rfl, g1, g2⟩ := hWP
    exact ⟨mem', e, g1, g2⟩
  obtain ⟨fr0, heap0, m0, k⟩ := st
  have hm0 := hw.heap
  have hBs : (∀ j, k ≤ j → B ≠ .stack j) ∧ ∀ j, heap0.tick ≤ j → B ≠ .heap j := by
    obtain ⟨g1, g2, g3, ⟨g, g4⟩, -⟩ := hB
    constructor
    · rintro j hj rfl
      have := hw.stack j hj
      rw [g4] at this
      cases this
    · rintro j hj rfl
      have := hw.heap j hj
      rw [g4] at this
      cases this
  have hbt : bid < heap0.tick := by
    obtain ⟨g1, g2, g3, -, rest, g5⟩ := hB
    refine Classical.byContradiction fun hc => ?_
    have := hw.heap bid (by simpa using hc)
    rw [g5] at this
    cases this
  apply wp_runFun
  rw [headerAndPayload_body]
  simp only [write_header_and_payload, Nat.reduceSub, List.replicate, List.cons_append, List.nil_append]
  xi []
  have hfin : ∀ {fr mem k'}, HEnd m0 k B bid sb' mem →
      Return ⟨fr0, heap0, m0, k⟩ (fun v st' => v = .int rc ∧ ∃ mem', st' = { (⟨fr0, heap0, m0, k⟩ : St) with heap := h', mem := mem' } ∧
        BufAt mem' B bid 1024 sb' ∧ Frame m0 mem' B bid) (.ret (.int rc)) ⟨fr, h', mem, k'⟩ := by
    intro fr mem k' hH
    obtain ⟨g1, g2⟩ := HEnd.frame hw hH
    exact ⟨rfl, _, rfl, g1, g2⟩
  refine wp_init env fuel (d + 2) (cap := 256) (es := 1) (g := 1) (l := List.replicate 5 .undef) (st := ⟨_, heap0, upd m0 (.stack k) _, k + 1⟩) rfl
    (upd_same _ _ _) rfl (by simp) ?_
  simp only [writeHeaderAndPayload] at hr
  obtain ⟨blk, h1, eb, hr⟩ := M.bind_inv hr
  unfold alloc at eb
  have hBk := hBs.1 k (Nat.le_refl _)
  have hBt := hBs.2 heap0.tick (Nat.le_refl _)
  have hB1 : BufAt (upd m0 (.stack k) (some (List.replicate 5 .undef))) B bid 1024 sb := hB.upd hBk (by simp)
  split
  · rename_i hfail
    rw [if_pos hfail] at eb
    cases eb
    obtain ⟨e, rfl⟩ := M.pure_inv hr
    cases e
    intro mem' hf hk
    replace hf : Frame (upd m0 (.stack k) (some (List.replicate 5 .undef))) mem' (.stack k) heap0.tick := hf
    replace hk : mem' (.heap heap0.tick) = upd m0 (.stack k) (some (List.replicate 5 .undef)) (.heap heap0.tick) := hk
    xs []
    suffices hend : HEnd m0 k B bid sb mem' by
      obtain ⟨g1, g2⟩ := HEnd.frame hw hend
      exact ⟨rfl, _, rfl, g1, g2⟩
    refine ⟨hB1.frame hf hBk hBt (by simp) (show bid ≠ heap0.tick by omega), ?_, hBs.1⟩
    intro x g1 g2 g3
    have gk := g3 k (Nat.le_refl _)
    by_cases ht : x = .heap heap0.tick
    · rw [ht, hk]
      exact upd_ne _ _ (by simp)
    · rw [hf x gk ht]
      exact upd_ne _ _ gk
  · rename_i hfail
    rw [if_neg hfail] at eb
    cases eb
    intro mem1 hbuf hf
    replace hf : Frame (upd m0 (.stack k) (some (List.replicate 5 .undef))) mem1 (.stack k) heap0.tick := hf
    have H1 : HP m0 k heap0.tick B bid none sb [] [] { tick := heap0.tick + 1, live := heap0.tick :: heap0.live } mem1 :=
      { sbA := hB1.frame hf hBk hBt (by simp) (show bid ≠ heap0.tick by omega)
        bufA := hbuf
        ex := fun i => by
          rw [hf (.stack (k + 1 + i)) (by simp; omega) (by simp)]
          rw [upd_ne _ _ (by simp; omega)]
          exact hw.stack _ (by show k ≤ _; omega)
        hp := fun j hj => by
          rw [hf (.heap j) (by simp) (show (Blk.heap j) ≠ .heap heap0.tick by simp; omega)]
          rw [upd_ne _ _ (by simp)]
          exact hw.heap _ (by show heap0.tick ≤ _; omega)
        old := fun x g1 g2 g3 g4 => by
          rw [hf x (g3 k (Nat.le_refl _)) (g4 _ (Nat.le_refl _))]
          exact upd_ne _ _ (g3 k (Nat.le_refl _))
        Bs := hBs.1
        Bh := hBs.2
        bt := hbt
        tick := by simp
        live := by simp
        sgt := by simp }
    xi []
    rw [wp_if]
    xi []
    have hE1 := hE.over (H1.over hb)
    refine H1.wpSwitch env fuel (d + 2) hE1 ?_ ?_
    rotate_left
    · intro hn mem' g1 g2
      simp only [hn] at hr
      obtain ⟨u, h2, ef, hr⟩ := M.bind_inv hr
      obtain ⟨e, rfl⟩ := M.pure_inv hr
      cases e
      unfold free at ef
      simp only [List.mem_cons, true_or, if_true] at ef
      cases ef
      exact hfin (H1.endOf hm0 g1 g2)
    intro e n hpre
    simp only [hpre] at hr
    obtain ⟨pre, epre, hr⟩ := M.liftBind_inv hr
    obtain ⟨hn, rfl⟩ := rdN_inv epre
    obtain ⟨q1, h1, g1, hr⟩ := M.bind_inv hr
    refine ⟨hn, q1, h1, g1, ?_⟩
    intro mem2 H2
    obtain ⟨q2, h2, g2, hr⟩ := M.bind_inv hr
    obtain ⟨sg, h3, g3, hr⟩ := M.bind_inv hr
    rw [then_next]
    refine H2.wpHeader env fuel d hb hE hF rfl g2 ?_
    intro mem3 H3
    xi []
    have H4 := (H3.decl [.undef]).decl [.undef]
    have hl2 : q2.length ≤ encBytes p := by
      have := headerText_length g2
      have l1 := push_length g1
      have l2 := List.length_take_le n e
      have l3 := headerPrefix_le hpre
      have : encBytes p ≥ 10000 + claimsBytes p.headerClaims := by unfold encBytes; omega
      simp only [List.length_nil] at l1
      omega
    have hbytes := hF.bytes
    have hsize := hF.size
    rw [← wp_seq]
    refine H4.wpSegment env fuel (d + 1) hm0 (by omega) (by omega) g3 rfl ?_ ?_
    rotate_left
    · intro hne fr mem' hlv hH'
      rw [if_pos hne] at hr
      obtain ⟨u, h4, ef, hr⟩ := M.bind_inv hr
      obtain ⟨e, rfl⟩ := M.pure_inv hr
      cases e
      unfold free at ef
      simp only [hlv, if_true] at ef
      cases ef
      exact hfin hH'
    intro m len l mem4 ho hlen1 hlen2 H5 hlv
    subst ho
    simp only [L8W8JWT_SUCCESS, ne_eq, not_true_eq_false, if_false, Option.getD_some, Ptr.bytes, Option.map_some, deref] at hr
    obtain ⟨_, em, hr⟩ := M.liftBind_inv hr
    cases em
    obtain ⟨tx, etx, hr⟩ := M.liftBind_inv hr
    obtain ⟨-, rfl⟩ := rdN_inv etx
    obtain ⟨q3, h4, g4, hr⟩ := M.bind_inv hr
    obtain ⟨u, h5, g5, hr⟩ := M.bind_inv hr
    obtain ⟨q5, h6, g6, hr⟩ := M.bind_inv hr
    obtain ⟨sg2, h7, g7, hr7⟩ := M.bind_inv hr
    have hi := H4.tick
    have k4 := Steady.push _ _ _ _ _ _ _ g4
    refine H5.wpSegPush env fuel (d + 2) hi hlen1 hlen2 g4 ?_
    intro mem5 H6
    xi []
    refine wp_clear env fuel (d + 2) H6.bufA ?_
    intro v6 mem6 hb6 hf6
    have H7 := H6.pushBuf hb6 hf6
    xi []
    rw [← wp_seq]
    have hlv4 : h2.tick ∈ h4.live := by rw [k4.1]; exact hlv
    unfold free at g5
    simp only [hlv4, if_true] at g5
    cases g5
    refine H7.wpSegFree env fuel (d + 1) hi hlv4 rfl ?_
    intro mem7 H8
    xi []
    refine wp_storeV (b := .stack (k + 1)) rfl (l := [.ptr (some (.heap h2.tick, 0))]) (w := .ptr none) (H8.exAt (i := 0) rfl) (by omega) (by simp) (by rfl) ?_
    have H9 := H8.setEx (i := 0) (by simp) [.ptr none]
    xi []
    refine H9.wpPayload env fuel d hb hE hF g6 ?_
    intro mem8 x y H10
    have hl5 := payloadText_length g6
    refine H10.wpSegment env fuel (d + 1) hm0 (by omega) (by omega) g7 rfl ?_ ?_
    rotate_left
    · intro hne fr mem' hlv hH'
      rw [if_pos hne] at hr7
      obtain ⟨u, h4, ef, hr8⟩ := M.bind_inv hr7
      obtain ⟨e, rfl⟩ := M.pure_inv hr8
      cases e
      unfold free at ef
      simp only [hlv, if_true] at ef
      cases ef
      exact hfin hH'
    intro m' len' l' mem9 ho hlen1 hlen2 H11 hlv
    subst ho
    simp only [not_true_eq_false, if_false, Option.getD_some, Option.map_some] at hr7
    obtain ⟨_, em, hr8⟩ := M.liftBind_inv hr7
    cases em
    obtain ⟨tx, etx, hr9⟩ := M.liftBind_inv hr8
    obtain ⟨-, rfl⟩ := rdN_inv etx
    obtain ⟨q8, h8, g8, hr10⟩ := M.bind_inv hr9
    obtain ⟨q9, h9, g9, hr11⟩ := M.bind_inv hr10
    obtain ⟨u1, h10, g10, hr12⟩ := M.bind_inv hr11
    obtain ⟨u2, h11, g11, hr13⟩ := M.bind_inv hr12
    obtain ⟨e, rfl⟩ := M.pure_inv hr13
    cases e
    have hi := H10.tick
    have k8 := Steady.push _ _ _ _ _ _ _ g8
    have k9 := Steady.push _ _ _ _ _ _ _ g9
    rw [wp_seq, show pushE 0 (.str [46]) (.num 1) = .exp (.call "chillbuff_push_back" (.cons (.loc 0) (.cons (.str [46]) (.cons (.num 1) .nil))))
      from rfl]
    xi []
    refine H11.wpPushSb env fuel (d + 2) (m := [46] ++ [0]) (n := 1) (pts_lit _ _) (by simp) (by exact g8) ?_
    intro v10 mem10 H12
    xi []
    rw [← wp_seq]
    refine H12.wpSegPush env fuel (d + 2) hi hlen1 hlen2 g9 ?_
    intro mem11 H13
    have hlv9 : h6.tick ∈ h9.live := by rw [k9.1, k8.1]; exact hlv
    unfold free at g10
    simp only [hlv9, if_true] at g10
    cases g10
    refine H13.wpSegFree env fuel (d + 1) hi hlv9 rfl ?_
    intro mem12 H14
    have hlt := H14.live
    unfold free at g11
    simp only at hlt g11
    rw [if_pos hlt] at g11
    cases g11
    xi []
    refine H14.wpFree env fuel (d + 2) hm0 ?_
    intro v13 mem13 hend
    xi []
    obtain ⟨g1, g2⟩ := HEnd.frame hw hend
    exact ⟨rfl, _, rfl, g1, g2⟩

end L8w8jwt.C
