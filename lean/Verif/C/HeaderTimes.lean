import Verif.C.HeaderRules
/-!
# src/encode.c:160-186: the registered claims
-/

namespace L8w8jwt.C
open L8w8jwt L8w8jwt.C.Src

theorem wp_snprintf (env : Env) (fuel d : Nat) {b : Blk} {o n v : Nat} {s : Sched} {st : St} {l : List Val} {Q : Val → St → Prop}
    (hb : b.own = true) (h : st.mem b = some l) (hn : 0 < n) (hl : o + (snprintfU64 n v).length ≤ l.length)
    (hq : ∀ x, Q x { st with mem := upd st.mem b (some (poke l o (cells (snprintfU64 n v)))) }) :
    WP ((cx env fuel d).call "snprintf" [.ptr (some (b, (o : Int))), .int n, .ptr (some (.lit [37, 108, 117], 0)), .int v]) s st Q := by
  rw [cx_lib _ _ _ rfl]
  show WP (do
    let _ ← demand (decide (([37, 108, 117] : Bytes) = str "%lu") && decide (0 < (n : Int)))
    let _ ← writeCells (lctx env) (.ptr (some (b, (o : Int)))) (cells (snprintfU64 (n : Int).toNat (v : Int).toNat))
    pure (.int (decimal (v : Int).toNat).length)) s st Q
  have hd : (decide (([37, 108, 117] : Bytes) = str "%lu") && decide (0 < (n : Int))) = true := by
    rw [show str "%lu" = [37, 108, 117] from by decide]; simp; omega
  refine ⟨.int (decimal (v : Int).toNat).length, _, ?_, hq _⟩
  rw [hd]
  simp only [demand, if_true, X.bind_apply, X.pure_apply, writeCells, obj_own hb h, Int.toNat_natCast, cells_length]
  rw [if_pos ⟨by omega, hl⟩, setObj_own hb]
  simp [poke, cells_length]

/-- `if (params->t) snprintf(iatnbfexp + off, 21, "%" PRIu64, (uint64_t)params->t);` -/
def timeSet (i off : Int) : Stmt :=
  .ite (parE (.int .i64) i) (.exp (.call "snprintf" (.cons (.padd 1 (.loc 6) (.num off)) (.cons (.num 21) (.cons (.str [37, 108, 117])
    (.cons (.cast .u64 (parE (.int .i64) i)) .nil)))))) .skip

/-- `claims[..]`, as a member of the array of integers and pointers. -/
def addr (j : Nat) : Expr := if j = 0 then .loc 7 else .padd 1 (.loc 7) (.num j)

def stE (t : STy) (j : Nat) (e : Expr) (K : Stmt) : Stmt := .seq (.exp (.store t (addr j) e)) K

/-- One of the claims for times. -/
def timeStmt (j : Nat) (off : Int) (e : Bytes) (K : Stmt) : Stmt :=
  stE .ptr j (.cond (.load (.int .char) (.padd 1 (.loc 6) (.num off))) (.str e) .null) (stE (.int .u64) (j + 1) (.num 3)
    (stE .ptr (j + 2) (.padd 1 (.loc 6) (.num off)) (stE (.int .u64) (j + 3) (.num 0) (stE (.int .i32) (j + 4) (.num 1) K))))

/-- One of the claims for strings. -/
def strStmt (j : Nat) (i : Int) (e : Bytes) (K : Stmt) : Stmt :=
  stE .ptr j (.cond (parE .ptr i) (.str e) .null) (stE (.int .u64) (j + 1) (.num 3)
    (stE .ptr (j + 2) (parE .ptr i) (stE (.int .u64) (j + 3) (parE (.int .u64) (i + 1)) (stE (.int .i32) (j + 4) (.num 0) K))))

/-- A key that may be NULL. -/
def keyCell (b : Bool) (e : Bytes) : Val := if b then .ptr (some (.lit e, 0)) else .ptr none

theorem wif_key {c : Ctx} {s : Sched} {st : St} {Q : Val → St → Prop} {p : Prop} {b : Bool} {e : Bytes} (hp : p ↔ b = true) (h : Q (keyCell b e) st) :
    WIf p (WP (eval c (.str e)) s st Q) (WP (eval c .null) s st Q) := by
  rw [wp_str, wp_null]
  cases b with
  | true => exact ⟨fun _ => h, fun hc => absurd (hp.mpr rfl) hc⟩
  | false => exact ⟨fun hc => by simpa using hp.mp hc, fun _ => h⟩

theorem set_five (dn : List Val) (n : Nat) (a b c d e : Val) :
    ((((((dn ++ List.replicate (n + 5) (Val.int 0)).set dn.length a).set (dn.length + 1) b).set (dn.length + 2) c).set (dn.length + 3) d).set
      (dn.length + 4) e) = dn ++ [a, b, c, d, e] ++ List.replicate n (.int 0) := by
  simp [List.replicate_succ, List.set_append_right]

section
variable {m0 : Blk → Option (List Val)} {k t0 : Nat} {B : Blk} {bid : Nat} {sg : Option (Nat × List Val)} {sb buf : Bytes}
  {ex : List (List Val)} {heap : Heap} {mem : Blk → Option (List Val)} {fr : List Val} {stk : Nat} {s : Sched}

theorem HP.exAt (hH : HP m0 k t0 B bid sg sb buf ex heap mem) {i : Nat} {l : List Val} (h : ex[i]? = some l) : mem (.stack (k + 1 + i)) = some l := by
  rw [hH.ex i]; exact h

theorem toU64_wrap (cs : Bool) (t : Int) : wrap cs .u64 t = (toU64 t : Int) := by
  unfold toU64
  rw [Int.toNat_of_nonneg (Int.emod_nonneg _ (by omega))]
  rfl

theorem poke_bytes (x : Bytes) (o : Nat) (y : Bytes) : poke (cells x) o (cells y) = cells (x.take o ++ y ++ x.drop (o + y.length)) := by
  simp [poke, cells]

theorem set_same {α : Type} {l : List α} {i : Nat} {a : α} (h : l[i]? = some a) : l.set i a = l := by
  apply List.ext_getElem?
  intro j
  rw [List.getElem?_set]
  split
  · rename_i hj
    subst hj
    split
    · exact h.symm
    · rename_i hl
      exact absurd (List.getElem?_eq_some_iff.mp h).1 hl
  · rfl

theorem HP.wpTime (env : Env) (fuel d : Nat) {P : Blk} {p : EncParams} {w : EncPtrs} {base : Blk → Option (List Val)}
    (hb : Base base m0 k t0 B bid) (hE : EncAt base P p w) (hH : HP m0 k t0 B bid sg sb buf ex heap mem) {i off : Nat} {t : Int} {x x' : Bytes}
    (h2 : ex[2]? = some (cells x)) (hi : (encCells p w)[i]? = some (.int t)) (ht : -9223372036854775808 ≤ t ∧ t < 9223372036854775808)
    (hr : putTime x off t = .ok x') {b0 b2 b3 b4 b5 : Val} {rest : List Val} {K : Stmt} {Q : Ctl → St → Prop}
    (hq : ∀ mem', HP m0 k t0 B bid sg sb buf (ex.set 2 (cells x')) heap mem' → WP (exec (cx env fuel d) K .run) s
      ⟨b0 :: .ptr (some (P, 0)) :: b2 :: b3 :: b4 :: b5 :: .ptr (some (.stack (k + 3), 0)) :: rest, heap, mem', stk⟩ Q) :
    WP (exec (cx env fuel d) (.seq (timeSet i off) K) .run) s
      ⟨b0 :: .ptr (some (P, 0)) :: b2 :: b3 :: b4 :: b5 :: .ptr (some (.stack (k + 3), 0)) :: rest, heap, mem, stk⟩ Q := by
  have hE1 := hE.over (hH.over hb)
  have hs6 : mem (.stack (k + 3)) = some (cells x) := hH.exAt h2
  have ha : asTy (cx env fuel d).cs (.int .i64) (.int t) = .ok (.int t) := by
    show Except.ok (Val.int (wrap _ .i64 t)) = _
    rw [wrapr_i64 _ ht.1 ht.2]
  rw [wp_seq]
  unfold timeSet parE
  xs []
  refine wp_ld (c := cx env fuel d) (by exact hE1.cont) (by omega) (by rw [Int.toNat_natCast]; exact hi) ha ?_
  unfold putTime at hr
  by_cases h0 : t = 0
  · rw [if_neg (by simpa using h0)] at hr
    cases hr
    xs [h0]
    refine hq mem ?_
    rw [set_same h2]
    exact hH
  · rw [if_pos h0] at hr
    unfold wrAt at hr
    split at hr
    · rename_i hle
      cases hr
      xs [h0]
      refine wp_paddV (c := cx env fuel d) (l := cells x) ((cont_own rfl).trans hs6) (by omega) (by rw [cells_length]; omega) ?_
      xs []
      refine wp_ld (c := cx env fuel d) (by exact hE1.cont) (by omega) (by rw [Int.toNat_natCast]; exact hi) ha ?_
      xs [toU64_wrap]
      rw [Int.zero_add]
      refine wp_snprintf env fuel d (o := off) (n := 21) (v := toU64 t) (l := cells x) (st := ⟨_, heap, mem, stk⟩) rfl hs6 (by omega) (by rw [cells_length]; exact hle) ?_
      intro y
      xs []
      have := hH.setEx (i := 2) (by have := List.getElem?_eq_some_iff.mp h2; exact this.1) (poke (cells x) off (cells (snprintfU64 21 (toU64 t))))
      rw [poke_bytes] at this
      refine hq _ ?_
      rw [poke_bytes]
      exact this
    · cases hr

theorem wp_addr (env : Env) (fuel d : Nat) {l : List Val} {j : Nat} {f0 f1 f2 f3 f4 f5 f6 : Val} {b : Blk} {rest : List Val} {Q : Val → St → Prop}
    (hm : cont globs mem b = some l) (hj : j < l.length)
    (hq : Q (.ptr (some (b, (j : Int)))) ⟨f0 :: f1 :: f2 :: f3 :: f4 :: f5 :: f6 :: .ptr (some (b, 0)) :: rest, heap, mem, stk⟩) :
    WP (eval (cx env fuel d) (addr j)) s ⟨f0 :: f1 :: f2 :: f3 :: f4 :: f5 :: f6 :: .ptr (some (b, 0)) :: rest, heap, mem, stk⟩ Q := by
  unfold addr
  split
  · rename_i h0
    subst h0
    xs []
    exact hq
  · xs []
    refine wp_paddV (c := cx env fuel d) (l := l) (st := ⟨_, heap, mem, stk⟩) hm (by omega) (by omega) ?_
    rw [Int.zero_add]
    exact hq

theorem HP.wpStore (env : Env) (fuel d : Nat) (hH : HP m0 k t0 B bid sg sb buf ex heap mem) {l : List Val} (h3 : ex[3]? = some l) {t : STy} {j : Nat}
    (hj : j < l.length) {e : Expr} {v w : Val} {f0 f1 f2 f3 f4 f5 f6 : Val} {rest : List Val} {K : Stmt} {Q : Ctl → St → Prop}
    (he : ∀ Q : Val → St → Prop, Q v ⟨f0 :: f1 :: f2 :: f3 :: f4 :: f5 :: f6 :: .ptr (some (.stack (k + 4), 0)) :: rest, heap, mem, stk⟩ →
      WP (eval (cx env fuel d) e) s ⟨f0 :: f1 :: f2 :: f3 :: f4 :: f5 :: f6 :: .ptr (some (.stack (k + 4), 0)) :: rest, heap, mem, stk⟩ Q)
    (hw : toCell t v = .ok w)
    (hq : ∀ mem', HP m0 k t0 B bid sg sb buf (ex.set 3 (l.set j w)) heap mem' → WP (exec (cx env fuel d) K .run) s
      ⟨f0 :: f1 :: f2 :: f3 :: f4 :: f5 :: f6 :: .ptr (some (.stack (k + 4), 0)) :: rest, heap, mem', stk⟩ Q) :
    WP (exec (cx env fuel d) (stE t j e K) .run) s ⟨f0 :: f1 :: f2 :: f3 :: f4 :: f5 :: f6 :: .ptr (some (.stack (k + 4), 0)) :: rest, heap, mem, stk⟩ Q := by
  have hs7 : mem (.stack (k + 4)) = some l := hH.exAt h3
  unfold stE
  rw [wp_seq]
  xs []
  refine wp_addr env fuel d (l := l) ((cont_own rfl).trans hs7) hj ?_
  refine he _ ?_
  refine wp_storeV (c := cx env fuel d) (b := .stack (k + 4)) rfl (l := l) (w := w) hs7 (by omega) (by simpa using hj) hw ?_
  xs []
  have := hH.setEx (i := 3) (by exact (List.getElem?_eq_some_iff.mp h3).1) (l.set j w)
  exact hq _ this

def timeCells (k off : Nat) (b : UInt8) (e : Bytes) : List Val :=
  [keyCell (b ≠ 0) e, .int 3, .ptr (some (.stack (k + 3), (off : Int))), .int 0, .int 1]

def strCells (v : Val) (q : Option Bytes) (n : Nat) (e : Bytes) : List Val := [keyCell q.isSome e, .int 3, nul v, .int n, .int 0]

theorem HP.wpTimeClaim (env : Env) (fuel d : Nat) {dn : List Val} {n : Nat} {x : Bytes} {off j : Nat} {b : UInt8} {e : Bytes}
    {a4 a5 : List Val} (hH : HP m0 k t0 B bid sg sb buf [a4, a5, cells x, dn ++ List.replicate (n + 5) (.int 0)] heap mem)
    (hj : dn.length = j) (hr : rd x off = .ok b)
    {f0 f1 f2 f3 f4 f5 : Val} {K : Stmt} {Q : Ctl → St → Prop}
    (hq : ∀ mem', HP m0 k t0 B bid sg sb buf [a4, a5, cells x, dn ++ timeCells k off b e ++ List.replicate n (.int 0)] heap mem' →
      WP (exec (cx env fuel d) K .run) s
      ⟨[f0, f1, f2, f3, f4, f5, .ptr (some (.stack (k + 3), 0)), .ptr (some (.stack (k + 4), 0))], heap, mem', stk⟩ Q) :
    WP (exec (cx env fuel d) (timeStmt j off e K) .run) s
      ⟨[f0, f1, f2, f3, f4, f5, .ptr (some (.stack (k + 3), 0)), .ptr (some (.stack (k + 4), 0))], heap, mem, stk⟩ Q := by
  subst hj
  have hb : x[off]? = some b := by
    unfold rd at hr
    split at hr
    · rename_i h; cases hr; exact h
    · cases hr
  have hbl : off < x.length := (List.getElem?_eq_some_iff.mp hb).1
  unfold timeStmt
  refine hH.wpStore env fuel d rfl (by simp) (v := keyCell (b ≠ 0) e) (w := keyCell (b ≠ 0) e) ?_ ?_ ?_
  · intro Q h
    xs []
    refine wp_paddV (c := cx env fuel d) (l := cells x) ((cont_own rfl).trans (hH.exAt (i := 2) rfl)) (by omega) (by rw [cells_length]; omega) ?_
    refine wp_load_char (l := cells x) (o := off) (i := 0) (x := b) ((cont_own rfl).trans (hH.exAt (i := 2) rfl)) ?_ (by omega) ?_
    · rw [bytesFrom_cells, List.getElem?_drop]; exact hb
    xs []
    refine wif_key ?_ h
    rw [decide_eq_true_iff]
    exact not_congr (charVal_eq_zero _ _)
  · unfold keyCell; split <;> rfl
  intro mem1 H1
  refine H1.wpStore env fuel d rfl (by simp) (v := .int 3) (w := .int 3) (fun Q h => by xs []; exact h) rfl ?_
  intro mem2 H2
  refine H2.wpStore env fuel d rfl (by simp) (v := .ptr (some (.stack (k + 3), (off : Int)))) (w := .ptr (some (.stack (k + 3), (off : Int)))) ?_ rfl ?_
  · intro Q h
    xs []
    refine wp_paddV (c := cx env fuel d) (l := cells x) ((cont_own rfl).trans (H2.exAt (i := 2) rfl)) (by omega) (by rw [cells_length]; omega) ?_
    rw [Int.zero_add]
    exact h
  intro mem3 H3
  refine H3.wpStore env fuel d rfl (by simp) (v := .int 0) (w := .int 0) (fun Q h => by xs []; exact h) rfl ?_
  intro mem4 H4
  refine H4.wpStore env fuel d rfl (by simp) (v := .int 1) (w := .int 1) (fun Q h => by xs []; exact h) rfl ?_
  intro mem5 H5
  refine hq mem5 ?_
  simp only [List.set_cons_succ, List.set_cons_zero] at H5
  rw [set_five] at H5
  exact H5

theorem HP.wpStrClaim (env : Env) (fuel d : Nat) {P : Blk} {p : EncParams} {w : EncPtrs} {base : Blk → Option (List Val)}
    (hb : Base base m0 k t0 B bid) (hE : EncAt base P p w) {dn : List Val} {n : Nat} {x : Bytes} {i j : Nat} {v : Val} {q : Option Bytes} {ln : Nat} {e : Bytes}
    {a4 a5 : List Val} (hH : HP m0 k t0 B bid sg sb buf [a4, a5, cells x, dn ++ List.replicate (n + 5) (.int 0)] heap mem)
    (hj : dn.length = j) (hi : (encCells p w)[i]? = some v) (hi1 : (encCells p w)[i + 1]? = some (.int ln)) (hln : ln < 18446744073709551616)
    (hv : Pts globs base (nul v) q)
    {f0 f2 f3 f4 f5 : Val} {K : Stmt} {Q : Ctl → St → Prop}
    (hq : ∀ mem', HP m0 k t0 B bid sg sb buf [a4, a5, cells x, dn ++ strCells v q ln e ++ List.replicate n (.int 0)] heap mem' →
      WP (exec (cx env fuel d) K .run) s
      ⟨[f0, .ptr (some (P, 0)), f2, f3, f4, f5, .ptr (some (.stack (k + 3), 0)), .ptr (some (.stack (k + 4), 0))], heap, mem', stk⟩ Q) :
    WP (exec (cx env fuel d) (strStmt j i e K) .run) s
      ⟨[f0, .ptr (some (P, 0)), f2, f3, f4, f5, .ptr (some (.stack (k + 3), 0)), .ptr (some (.stack (k + 4), 0))], heap, mem, stk⟩ Q := by
  subst hj
  have hE0 := hE.over (hH.over hb)
  have hc : ∀ (c : Ctx), asTy c.cs .ptr v = .ok (nul v) := fun c => asTy_nul _ hv
  obtain ⟨y, hy, hyq⟩ : ∃ y, nul v = .ptr y ∧ y.isSome = q.isSome := by
    cases q with
    | none => exact ⟨_, hv, rfl⟩
    | some m => obtain ⟨b, o, l, h, _⟩ := hv; exact ⟨_, h, rfl⟩
  unfold strStmt
  refine hH.wpStore env fuel d rfl (by simp) (v := keyCell q.isSome e) (w := keyCell q.isSome e) ?_ ?_ ?_
  · intro Q h
    unfold parE
    xs []
    refine wp_ld (c := cx env fuel d) (by exact hE0.cont) (by omega) (by rw [Int.toNat_natCast]; exact hi) (hc _) ?_
    rw [hy]
    exact ⟨y.isSome, rfl, wif_key (by rw [hyq]) h⟩
  · unfold keyCell; split <;> rfl
  intro mem1 H1
  refine H1.wpStore env fuel d rfl (by simp) (v := .int 3) (w := .int 3) (fun Q h => by xs []; exact h) rfl ?_
  intro mem2 H2
  refine H2.wpStore env fuel d rfl (by simp) (v := nul v) (w := nul v) ?_ (by rw [hy]; rfl) ?_
  · intro Q h
    have hE2 := hE.over (H2.over hb)
    unfold parE
    xs []
    exact wp_ld (c := cx env fuel d) (by exact hE2.cont) (by omega) (by rw [Int.toNat_natCast]; exact hi) (hc _) h
  intro mem3 H3
  refine H3.wpStore env fuel d rfl (by simp) (v := .int ln) (w := .int ln) ?_ rfl ?_
  · intro Q h
    have hE2 := hE.over (H3.over hb)
    unfold parE
    xs []
    exact wp_ld (c := cx env fuel d) (by exact hE2.cont) (by omega) (by rw [show ((i : Int) + 1).toNat = i + 1 from by omega]; exact hi1)
      (by simp [asTy, wrap_u64 _ _ hln]) h
  intro mem4 H4
  refine H4.wpStore env fuel d rfl (by simp) (v := .int 0) (w := .int 0) (fun Q h => by xs []; exact h) rfl ?_
  intro mem5 H5
  refine hq mem5 ?_
  simp only [List.set_cons_succ, List.set_cons_zero] at H5
  rw [set_five] at H5
  exact H5

end

/-- encode.c:177-186: the array of the seven registered claims. -/
def claimArr (k : Nat) (p : EncParams) (w : EncPtrs) (b1 b2 b3 : UInt8) : List Val :=
  timeCells k 0 b1 (str "iat") ++ timeCells k 21 b2 (str "nbf") ++ timeCells k 42 b3 (str "exp") ++
    strCells w.sub p.sub.bytes p.subLength (str "sub") ++ strCells w.iss p.iss.bytes p.issLength (str "iss") ++
    strCells w.aud p.aud.bytes p.audLength (str "aud") ++ strCells w.jti p.jti.bytes p.jtiLength (str "jti")

theorem pts_key {m : Blk → Option (List Val)} {q : Prop} [Decidable q] {b : Bool} (hq : q ↔ b = true) (e : String) :
    Pts globs m (keyCell b (str e)) (Ptr.bytes (if q then lit e else none)) := by
  cases b with
  | true => rw [if_pos (hq.mpr rfl)]; exact pts_lit _ _
  | false => rw [if_neg (by simpa using hq)]; rfl

theorem timeCells_claim {m : Blk → Option (List Val)} {k : Nat} {x : Bytes} (hx : m (.stack (k + 3)) = some (cells x)) {off : Nat} {key : String}
    {c : Claim} (hr : timeClaim key x off = .ok c) {b : UInt8} (hb : rd x off = .ok b) {l : List Val} {i : Nat}
    (hl : ∀ j, j < 5 → l[i + j]? = (timeCells k off b (str key))[j]?) : ClaimCells m l i c := by
  simp only [timeClaim, hb] at hr
  cases hr
  have ho : off ≤ x.length := by
    unfold rd at hb
    split at hb
    · rename_i h; exact Nat.le_of_lt (List.getElem?_eq_some_iff.mp h).1
    · cases hb
  refine ⟨_, _, hl 0 (by omega), hl 1 (by omega), hl 2 (by omega), hl 3 (by omega), hl 4 (by omega), pts_key (by simp) key, ?_, by simp, by simp,
    by simp [L8W8JWT_CLAIM_TYPE_INTEGER], by simp [L8W8JWT_CLAIM_TYPE_INTEGER]⟩
  exact ⟨_, off, cells x, rfl, (cont_own rfl).trans hx, by rw [cells_length]; exact ho, by rw [bytesFrom_cells]⟩

theorem strCells_claim {m : Blk → Option (List Val)} {v : Val} {q : Ptr} {n : Nat} {key : String} (hv : Pts globs m (nul v) q.bytes)
    (hn : n < 18446744073709551616) {l : List Val} {i : Nat} (hl : ∀ j, j < 5 → l[i + j]? = (strCells v q.bytes n (str key))[j]?) :
    ClaimCells m l i (strClaim key q n) := by
  refine ⟨_, _, hl 0 (by omega), hl 1 (by omega), hl 2 (by omega), hl 3 (by omega), hl 4 (by omega), pts_key ?_ key, hv, by simp [strClaim], hn,
    by simp [strClaim, L8W8JWT_CLAIM_TYPE_STRING], by simp [strClaim, L8W8JWT_CLAIM_TYPE_STRING]⟩
  cases q <;> simp [Ptr.bytes]

/-- Memory with the fields for times and the array of claims, both of them local variables. -/
def claimMem (base : Blk → Option (List Val)) (k : Nat) (x : Bytes) (l : List Val) : Blk → Option (List Val) :=
  upd (upd base (.stack (k + 3)) (some (cells x))) (.stack (k + 4)) (some l)

theorem claimArr_at {base : Blk → Option (List Val)} {P : Blk} {p : EncParams} {w : EncPtrs} (hE : EncAt base P p w) {k : Nat}
    (hk : ∀ j, k ≤ j → base (.stack j) = none) {x : Bytes} {c1 c2 c3 : Claim} {b1 b2 b3 : UInt8} (e1 : timeClaim "iat" x 0 = .ok c1)
    (e2 : timeClaim "nbf" x 21 = .ok c2) (e3 : timeClaim "exp" x 42 = .ok c3) (r1 : rd x 0 = .ok b1) (r2 : rd x 21 = .ok b2) (r3 : rd x 42 = .ok b3) :
    ClaimsAt (claimMem base k x (claimArr k p w b1 b2 b3)) (.ptr (some (.stack (k + 4), 0)))
      (some [c1, c2, c3, strClaim "sub" p.sub p.subLength, strClaim "iss" p.iss p.issLength, strClaim "aud" p.aud p.audLength,
        strClaim "jti" p.jti p.jtiLength]) := by
  have ho : Over base (claimMem base k x (claimArr k p w b1 b2 b3)) := ((Over.refl base).upd (hk _ (by omega)) _).upd (hk _ (by omega)) _
  have h3 : claimMem base k x (claimArr k p w b1 b2 b3) (.stack (k + 3)) = some (cells x) := by
    unfold claimMem
    rw [upd_ne _ _ (by simp), upd_same]
  refine ⟨_, 0, claimArr k p w b1 b2 b3, rfl, (cont_own rfl).trans (upd_same _ _ _), by simp [claimArr, timeCells, strCells], ?_⟩
  intro i c hc
  have five : ∀ {q : Nat → Prop}, q 0 → q 1 → q 2 → q 3 → q 4 → ∀ j, j < 5 → q j := by
    intro q a0 a1 a2 a3 a4 j hj
    match j, hj with
    | 0, _ => exact a0
    | 1, _ => exact a1
    | 2, _ => exact a2
    | 3, _ => exact a3
    | 4, _ => exact a4
  match i, hc with
  | 0, hc => cases hc; exact timeCells_claim h3 e1 r1 (five rfl rfl rfl rfl rfl)
  | 1, hc => cases hc; exact timeCells_claim h3 e2 r2 (five rfl rfl rfl rfl rfl)
  | 2, hc => cases hc; exact timeCells_claim h3 e3 r3 (five rfl rfl rfl rfl rfl)
  | 3, hc => cases hc; exact strCells_claim (ho.pts hE.sub) hE.subLength (five rfl rfl rfl rfl rfl)
  | 4, hc => cases hc; exact strCells_claim (ho.pts hE.iss) hE.issLength (five rfl rfl rfl rfl rfl)
  | 5, hc => cases hc; exact strCells_claim (ho.pts hE.aud) hE.audLength (five rfl rfl rfl rfl rfl)
  | 6, hc => cases hc; exact strCells_claim (ho.pts hE.jti) hE.jtiLength (five rfl rfl rfl rfl rfl)

end L8w8jwt.C
