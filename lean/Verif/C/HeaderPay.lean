import Verif.C.HeaderTimes
/-!
# src/encode.c:160-200: the payload
-/

namespace L8w8jwt.C
open L8w8jwt L8w8jwt.C.Src

/-- `e` is evaluated without effect; whether it is true: `p`. -/
def Tr (c : Ctx) (s : Sched) (st : St) (e : Expr) (p : Prop) : Prop :=
  ∀ Q : Val → St → Prop, (∀ v b, v.truth = .ok b → (b = true ↔ p) → Q v st) → WP (eval c e) s st Q

theorem Tr.lor {c : Ctx} {s : Sched} {st : St} {a b : Expr} {p q : Prop} (h1 : Tr c s st a p) (h2 : Tr c s st b q) : Tr c s st (.lor a b) (p ∨ q) := by
  intro Q hq
  rw [wp_lor]
  refine h1 _ ?_
  intro v b hv hb
  refine ⟨b, hv, fun hp => hq _ true rfl ⟨fun _ => .inl (hb.mp hp), fun _ => rfl⟩, fun hn => h2 _ ?_⟩
  intro v2 b2 hv2 hb2
  refine ⟨b2, hv2, hq _ b2 ?_ ?_⟩
  · cases b2 <;> rfl
  · rw [hb2]
    exact ⟨.inr, fun h => h.resolve_left (fun hp => hn (hb.mpr hp))⟩

theorem tr_par {env : Env} {fuel d : Nat} {s : Sched} {P : Blk} {p : EncParams} {w : EncPtrs} {b0 : Val} {rest : List Val} {heap : Heap}
    {mem : Blk → Option (List Val)} {stk : Nat} (hE : EncAt mem P p w) {t : ITy} {i : Int} {x : Int} (h0 : 0 ≤ i)
    (hi : (encCells p w)[i.toNat]? = some (.int x)) (ha : asTy (cx env fuel d).cs (.int t) (.int x) = .ok (.int x)) :
    Tr (cx env fuel d) s ⟨b0 :: .ptr (some (P, 0)) :: rest, heap, mem, stk⟩ (parE (.int t) i) (x ≠ 0) := by
  intro Q hq
  unfold parE
  xs []
  refine wp_ld (c := cx env fuel d) (by exact hE.cont) h0 hi ha ?_
  exact hq _ _ rfl (by simp)

/-- encode.c:190: any of the registered claims. -/
def anyClaim : Expr :=
  .lor (.lor (.lor (.lor (.lor (.lor (parE (.int .i64) 11) (parE (.int .i64) 9)) (parE (.int .i64) 10)) (parE (.int .u64) 2)) (parE (.int .u64) 4))
    (parE (.int .u64) 8)) (parE (.int .u64) 6)

def payClaims : Stmt :=
  .ite (.cmp .gt (parE (.int .u64) 15) (.num 0)) (.seq (.ite anyClaim (pushE 3 (.str [44]) (.num 1)) .skip)
    (writeE (parE .ptr 14) (parE (.int .u64) 15))) .skip

theorem asTy_i64 (cs : Bool) {x : Int} (h : -9223372036854775808 ≤ x ∧ x < 9223372036854775808) : asTy cs (.int .i64) (.int x) = .ok (.int x) := by
  show Except.ok (Val.int (wrap _ .i64 x)) = _
  rw [wrapr_i64 _ h.1 h.2]

theorem tr_any {env : Env} {fuel d : Nat} {s : Sched} {P : Blk} {p : EncParams} {w : EncPtrs} {b0 : Val} {rest : List Val} {heap : Heap}
    {mem : Blk → Option (List Val)} {stk : Nat} (hE : EncAt mem P p w) :
    Tr (cx env fuel d) s ⟨b0 :: .ptr (some (P, 0)) :: rest, heap, mem, stk⟩ anyClaim
      (p.iat ≠ 0 ∨ p.exp ≠ 0 ∨ p.nbf ≠ 0 ∨ p.issLength ≠ 0 ∨ p.subLength ≠ 0 ∨ p.jtiLength ≠ 0 ∨ p.audLength ≠ 0) := by
  have h := ((((((tr_par (env := env) (fuel := fuel) (d := d) (s := s) (b0 := b0) (rest := rest) (heap := heap) (stk := stk) hE (t := .i64) (i := 11)
    (by omega) (by rfl) (asTy_i64 _ hE.iat)).lor (tr_par hE (t := .i64) (i := 9) (by omega) (by rfl) (asTy_i64 _ hE.exp))).lor
    (tr_par hE (t := .i64) (i := 10) (by omega) (by rfl) (asTy_i64 _ hE.nbf))).lor
    (tr_par hE (t := .u64) (i := 2) (by omega) (by rfl) (asTy_u64 _ hE.issLength))).lor
    (tr_par hE (t := .u64) (i := 4) (by omega) (by rfl) (asTy_u64 _ hE.subLength))).lor
    (tr_par hE (t := .u64) (i := 8) (by omega) (by rfl) (asTy_u64 _ hE.jtiLength))).lor
    (tr_par hE (t := .u64) (i := 6) (by omega) (by rfl) (asTy_u64 _ hE.audLength))
  intro Q hq
  refine h Q ?_
  intro v b hv hb
  refine hq v b hv ?_
  rw [hb]
  omega

section
variable {m0 : Blk → Option (List Val)} {k t0 : Nat} {B : Blk} {bid : Nat} {sg : Option (Nat × List Val)} {sb buf : Bytes}
  {ex : List (List Val)} {heap : Heap} {mem : Blk → Option (List Val)} {fr : List Val} {stk : Nat} {s : Sched}

/-- The local variables for the registered claims. -/
def regStmt (K : Stmt) : Stmt :=
  .seq (.declMem 6 64 [.int 0] (.int 0)) (.seq (timeSet 11 0) (.seq (timeSet 10 21) (.seq (timeSet 9 42) (.seq (.declMem 7 35 [] (.int 0))
    (timeStmt 0 0 (str "iat") (timeStmt 5 21 (str "nbf") (timeStmt 10 42 (str "exp") (strStmt 15 3 (str "sub") (strStmt 20 1 (str "iss")
    (strStmt 25 5 (str "aud") (strStmt 30 7 (str "jti") K)))))))))))

theorem timeClaim_inv {key : String} {x : Bytes} {off : Nat} {c : Claim} (h : timeClaim key x off = .ok c) : ∃ b, rd x off = .ok b := by
  unfold timeClaim at h
  obtain ⟨b, e, -⟩ := res_inv h
  exact ⟨b, e⟩

theorem HP.wpReg (env : Env) (fuel d : Nat) {P : Blk} {p : EncParams} {w : EncPtrs} {base : Blk → Option (List Val)}
    (hb : Base base m0 k t0 B bid) (hE : EncAt base P p w) {a4 a5 : List Val} (hH : HP m0 k t0 B bid sg sb buf [a4, a5] heap mem)
    {b1 b2 b3 : Bytes} {u1 u2 u3 : UInt8}
    (e1 : putTime (List.replicate 64 0) 0 p.iat = .ok b1) (e2 : putTime b1 21 p.nbf = .ok b2) (e3 : putTime b2 42 p.exp = .ok b3)
    (r1 : rd b3 0 = .ok u1) (r2 : rd b3 21 = .ok u2) (r3 : rd b3 42 = .ok u3)
    {f0 f2 f3 f4 f5 f6 f7 : Val} {K : Stmt} {Q : Ctl → St → Prop}
    (hq : ∀ mem', HP m0 k t0 B bid sg sb buf [a4, a5, cells b3, claimArr k p w u1 u2 u3] heap mem' →
      WP (exec (cx env fuel d) K .run) s
      ⟨[f0, .ptr (some (P, 0)), f2, f3, f4, f5, .ptr (some (.stack (k + 3), 0)), .ptr (some (.stack (k + 4), 0))], heap, mem', k + 5⟩ Q) :
    WP (exec (cx env fuel d) (regStmt K) .run) s
      ⟨[f0, .ptr (some (P, 0)), f2, f3, f4, f5, f6, f7], heap, mem, k + 3⟩ Q := by
  unfold regStmt
  rw [wp_seq]
  xi []
  have H1 := hH.decl (cells (List.replicate 64 0))
  rw [← wp_seq]
  refine HP.wpTime env fuel d hb hE (i := 11) (off := 0) H1 rfl rfl hE.iat e1 ?_
  intro mem2 H2
  refine HP.wpTime env fuel d hb hE (i := 10) (off := 21) H2 rfl rfl hE.nbf e2 ?_
  intro mem3 H3
  refine HP.wpTime env fuel d hb hE (i := 9) (off := 42) H3 rfl rfl hE.exp e3 ?_
  intro mem4 H4
  rw [wp_seq]
  xi []
  have H5 := H4.decl (List.replicate 35 (.int 0))
  refine HP.wpTimeClaim env fuel d (dn := []) (n := 30) H5 rfl r1 ?_
  intro mem6 H6
  refine HP.wpTimeClaim env fuel d (n := 25) H6 rfl r2 ?_
  intro mem7 H7
  refine HP.wpTimeClaim env fuel d (n := 20) H7 rfl r3 ?_
  intro mem8 H8
  refine HP.wpStrClaim env fuel d hb hE (n := 15) (i := 3) H8 rfl rfl rfl hE.subLength hE.sub ?_
  intro mem9 H9
  refine HP.wpStrClaim env fuel d hb hE (n := 10) (i := 1) H9 rfl rfl rfl hE.issLength hE.iss ?_
  intro mem10 H10
  refine HP.wpStrClaim env fuel d hb hE (n := 5) (i := 5) H10 rfl rfl rfl hE.audLength hE.aud ?_
  intro mem11 H11
  refine HP.wpStrClaim env fuel d hb hE (n := 0) (i := 7) H11 rfl rfl rfl hE.jtiLength hE.jti ?_
  intro mem12 H12
  refine hq mem12 ?_
  rw [show List.replicate 0 (Val.int 0) = [] from rfl, List.append_nil] at H12
  exact H12

theorem HP.overClaims {base : Blk → Option (List Val)} (hb : Base base m0 k t0 B bid) {a4 a5 : List Val} {x : Bytes} {l : List Val}
    (hH : HP m0 k t0 B bid sg sb buf [a4, a5, cells x, l] heap mem) : Over (claimMem base k x l) mem := by
  intro b v hv
  unfold claimMem at hv
  by_cases h4 : b = .stack (k + 4)
  · rw [h4, upd_same] at hv
    cases hv
    rw [h4]
    exact hH.exAt (i := 3) rfl
  · rw [upd_ne _ _ h4] at hv
    by_cases h3 : b = .stack (k + 3)
    · rw [h3, upd_same] at hv
      cases hv
      rw [h3]
      exact hH.exAt (i := 2) rfl
    · rw [upd_ne _ _ h3] at hv
      exact hH.over hb b v hv

def payStmt (K : Stmt) : Stmt :=
  .seq (pushE 3 (.str [123]) (.num 1)) (.seq (writeE (.loc 7) (.ar .div .u64 (.num 35) (.num 5))) (.seq payClaims
    (.seq (pushE 3 (.str [125]) (.num 1)) K)))

theorem HP.wpPayload (env : Env) (fuel d : Nat) {P : Blk} {p : EncParams} {w : EncPtrs} {base : Blk → Option (List Val)}
    (hb : Base base m0 k t0 B bid) (hE : EncAt base P p w) (hF : Fits fuel p) {a4 a5 : List Val}
    (hH : HP m0 k t0 B bid none sb [] [a4, a5] heap mem) {buf' : Bytes} {h' : Heap} (hr : payloadText env p s heap = .ok (buf', h'))
    {f0 f2 f4 f5 f6 f7 : Val} {K : Stmt} {Q : Ctl → St → Prop}
    (hq : ∀ mem' x y, HP m0 k t0 B bid none sb buf' [a4, a5, x, y] h' mem' →
      WP (exec (cx env fuel (d + 2)) K .run) s
      ⟨[f0, .ptr (some (P, 0)), f2, .ptr (some (.stack k, 0)), f4, f5, .ptr (some (.stack (k + 3), 0)), .ptr (some (.stack (k + 4), 0))],
        h', mem', k + 5⟩ Q) :
    WP (exec (cx env fuel (d + 2)) (regStmt (payStmt K)) .run) s
      ⟨[f0, .ptr (some (P, 0)), f2, .ptr (some (.stack k, 0)), f4, f5, f6, f7], heap, mem, k + 3⟩ Q := by
  simp only [payloadText] at hr
  obtain ⟨cs, ecs, hr⟩ := M.liftBind_inv hr
  obtain ⟨q1, h1, g1, hr⟩ := M.bind_inv hr
  obtain ⟨q2, h2, g2, hr⟩ := M.bind_inv hr
  obtain ⟨q3, h3, g3, hr3⟩ := M.bind_inv hr
  have hbytes := registered_bytes ecs
  obtain ⟨b1, b2, b3, c1, c2, c3, e1, e2, e3, e4, e5, e6, rfl⟩ := registered_inv ecs
  obtain ⟨u1, r1⟩ := timeClaim_inv e4
  obtain ⟨u2, r2⟩ := timeClaim_inv e5
  obtain ⟨u3, r3⟩ := timeClaim_inv e6
  refine hH.wpReg env fuel (d + 2) hb hE e1 e2 e3 r1 r2 r3 ?_
  intro mem1 H1
  unfold payStmt
  rw [wp_seq, show pushE 3 (.str [123]) (.num 1) = .exp (.call "chillbuff_push_back" (.cons (.loc 3) (.cons (.str [123]) (.cons (.num 1) .nil))))
    from rfl]
  xi []
  refine H1.wpPush env fuel (d + 2) (m := [123] ++ [0]) (n := 1) (pts_lit _ _) (by simp) (by exact g1) ?_
  intro v1 mem2 H2
  have hcl := claimArr_at hE hb.stk e4 e5 e6 r1 r2 r3
  unfold writeE
  xi []
  refine H2.wpWrite env fuel d (H2.overClaims hb) ?_ ?_ hcl (N := encBytes p) (by omega) hF.bytes hF.size (n := 7) ?_ rfl g2 ?_
  · unfold claimMem
    rw [upd_ne _ _ (by simp), upd_ne _ _ (by simp)]
    exact hb.stk k (Nat.le_refl _)
  · unfold claimMem
    rw [upd_ne _ _ (by simp), upd_ne _ _ (by simp)]
    exact hb.hp t0 (Nat.le_refl _)
  · have := hF.bytes
    unfold encBytes at this
    omega
  intro v2 mem3 H3
  have hend : ∀ mem', HP m0 k t0 B bid none sb q3 [a4, a5, cells b3, claimArr k p w u1 u2 u3] h3 mem' →
      WP (exec (cx env fuel (d + 2)) (.seq (pushE 3 (.str [125]) (.num 1)) K) .run) s
      ⟨[f0, .ptr (some (P, 0)), f2, .ptr (some (.stack k, 0)), f4, f5, .ptr (some (.stack (k + 3), 0)), .ptr (some (.stack (k + 4), 0))],
        h3, mem', k + 5⟩ Q := by
    intro mem' hH'
    rw [wp_seq]
    unfold pushE
    xs []
    refine hH'.wpPush env fuel (d + 2) (m := [125] ++ [0]) (n := 1) (pts_lit _ _) (by simp) (by exact hr3) ?_
    intro v mem'' hH''
    exact hq mem'' _ _ hH''
  have hE3 := hE.over (H3.over hb)
  xi []
  unfold payClaims
  rw [wp_if]
  xi []
  unfold parE
  xi []
  refine wp_ld (c := cx env fuel (d + 2)) (by exact hE3.cont) (by omega) (by rfl) (asTy_u64 _ hE.pcCount) ?_
  by_cases h0 : 0 < p.payloadClaimsCount
  · rw [if_pos h0] at g3
    obtain ⟨q4, h4, g4, g5⟩ := M.bind_inv g3
    have hwr : ∀ mem', HP m0 k t0 B bid none sb q4 [a4, a5, cells b3, claimArr k p w u1 u2 u3] h4 mem' →
        WP (exec (cx env fuel (d + 2)) (writeE (parE .ptr 14) (parE (.int .u64) 15)) .run) s
        ⟨[f0, .ptr (some (P, 0)), f2, .ptr (some (.stack k, 0)), f4, f5, .ptr (some (.stack (k + 3), 0)), .ptr (some (.stack (k + 4), 0))],
          h4, mem', k + 5⟩ (Then (cx env fuel (d + 2)) (.seq (pushE 3 (.str [125]) (.num 1)) K) s Q) := by
      intro mem' hH'
      have hE4 := hE.over (hH'.over hb)
      have hc : asTy (cx env fuel (d + 2)).cs .ptr w.pc = .ok (nul w.pc) := by
        rcases hE.pc.ptr with ⟨-, e⟩ | ⟨-, _, _, e⟩ <;> exact asTy_nulP _ e
      unfold writeE parE
      xi []
      refine wp_ld (c := cx env fuel (d + 2)) (by exact hE4.cont) (by omega) (by rfl) hc ?_
      xi []
      refine wp_ld (c := cx env fuel (d + 2)) (by exact hE4.cont) (by omega) (by rfl) (asTy_u64 _ hE.pcCount) ?_
      xi []
      refine hH'.wpWrite env fuel d (hH'.over hb) (hb.stk _ (Nat.le_refl _)) (hb.hp _ (Nat.le_refl _)) hE.pc (N := encBytes p) ?_ hF.bytes hF.size hF.pc rfl g5 ?_
      · unfold encBytes; omega
      intro v mem'' hH''
      exact hend mem'' hH''
    xi [show ((0 : Int) < (p.payloadClaimsCount : Int)) from by omega]
    rw [wp_if]
    refine tr_any hE3 _ ?_
    intro v b hv hb
    refine ⟨b, hv, ?_, ?_⟩
    · intro hbt
      rw [if_pos (hb.mp hbt)] at g4
      unfold pushE
      xi []
      refine H3.wpPush env fuel (d + 2) (m := [44] ++ [0]) (n := 1) (pts_lit _ _) (by simp) (by exact g4) ?_
      intro v mem' hH'
      exact hwr mem' hH'
    · intro hbf
      rw [if_neg (fun h => hbf (hb.mpr h))] at g4
      obtain ⟨rfl, rfl⟩ := M.pure_inv g4
      xi []
      exact hwr mem3 H3
  · rw [if_neg h0] at g3
    obtain ⟨rfl, rfl⟩ := M.pure_inv g3
    xi [show ¬ ((0 : Int) < (p.payloadClaimsCount : Int)) from by omega]
    have := hend mem3 H3
    rw [wp_seq] at this
    exact this

end

end L8w8jwt.C
