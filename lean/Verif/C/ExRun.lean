import Verif.C.ExSem
import Verif.C.EncodeProof
import Verif.C.DecodeRawProof
/-!
# Executing the beginning of a program

The programs of /repo/examples fill in structures and then make a call. `symEval` executes the former, on a description of the state
that is a list of objects; `symEval_sound` says that the execution does what the description says.
-/

namespace L8w8jwt.C

open Lean Elab Tactic in
/-- `a = b` by computation, which is left to the kernel. -/
elab "kernel_rfl" : tactic => do
  let g ← getMainGoal
  let t ← instantiateMVars (← g.getType)
  let some (_, a, _) := t.eq? | throwError "not an equation"
  g.assign (← Meta.mkEqRefl a)

/-- Conditions: a literal contains no NUL, and a number is one of `int64_t`. -/
inductive Need where
  | noNul (t : Bytes)
  | range (v : Int)

/-- The condition holds. -/
def Need.Holds : Need → Prop
  | .noNul t => 0 ∉ t
  | .range v => -9223372036854775808 ≤ v ∧ v < 9223372036854775808

/-- Local variables, local objects, and what has to hold for the execution to be as described. -/
structure SymSt where
  fr : List Val
  objs : List (List Val)
  need : List Need

/-- All conditions hold. -/
def SymSt.Ok (L : SymSt) : Prop := ∀ x ∈ L.need, x.Holds

/-- The state that is described. -/
def SymSt.st (L : SymSt) (h : Heap) (out : Bytes) : St := ⟨L.fr, h, layMem L.objs out, L.objs.length⟩

/-- Calls of functions. -/
def symCall (now : Int) (f : String) (vs : List Val) (L : SymSt) : Option (Val × SymSt) :=
  if f = "strlen" then
    match vs with
    | [.ptr (some (.lit s, 0))] => some (.int s.length, { L with need := .noNul s :: L.need })
    | _ => none
  else if f = "l8w8jwt_time" then
    match vs with
    | [_] => some (.int now, L)
    | _ => none
  else if f = "l8w8jwt_encoding_params_init" then
    match vs with
    | [.ptr (some (.stack i, 0))] =>
      match L.objs[i]? with
      | some l => if l.length = 22 then some (.undef, { L with objs := L.objs.set i (encCells encodingParamsInit zeroEnc) }) else none
      | none => none
    | _ => none
  else if f = "l8w8jwt_decoding_params_init" then
    match vs with
    | [.ptr (some (.stack i, 0))] =>
      match L.objs[i]? with
      | some l => if l.length = 21 then some (.undef, { L with objs := L.objs.set i (decCells decodingParamsInit zeroPtrs) }) else none
      | none => none
    | _ => none
  else none

/-- Storing in a local object. -/
def symStore (t : STy) (p v : Val) (L : SymSt) : Option SymSt :=
  match p with
  | .ptr (some (.stack i, o)) =>
    match L.objs[i]?, toCell t v with
    | some l, .ok w => if 0 ≤ o ∧ o.toNat < l.length then some { L with objs := L.objs.set i (l.set o.toNat w) } else none
    | _, _ => none
  | _ => none

/-- Reading a pointer from a local object. -/
def symLoad (p : Val) (L : SymSt) : Option Val :=
  match p with
  | .ptr (some (.stack i, o)) =>
    match L.objs[i]? with
    | some l =>
      if o < 0 then none
      else match l[o.toNat]? with
        | some (.ptr q) => some (.ptr q)
        | _ => none
    | none => none
  | _ => none

/-- Pointer arithmetic in a local object. -/
def symPadd (p : Val) (d : Int) (L : SymSt) : Option Val :=
  match p with
  | .ptr (some (.stack i, o)) =>
    match L.objs[i]? with
    | some l => if 0 ≤ o + d ∧ o + d ≤ l.length then some (.ptr (some (.stack i, o + d))) else none
    | none => none
  | _ => none

mutual
/-- Expressions. -/
def symEval (now : Int) : Expr → SymSt → Option (Val × SymSt)
  | .num v, L => some (.int v, L)
  | .null, L => some (.ptr none, L)
  | .str s, L => some (.ptr (some (.lit s, 0)), L)
  | .loc i, L => some (L.fr.getD i .undef, L)
  | .ar .add .i64 a b, L =>
    match symEval now a L with
    | some (.int x, L1) =>
      match symEval now b L1 with
      | some (.int y, L2) => some (.int (x + y), { L2 with need := .range (x + y) :: L2.need })
      | _ => none
    | _ => none
  | .ar .div .u64 a b, L =>
    match symEval now a L with
    | some (.int x, L1) =>
      match symEval now b L1 with
      | some (.int y, L2) => if y = 0 then none else some (.int (Int.tdiv x y % 18446744073709551616), L2)
      | _ => none
    | _ => none
  | .padd scale p i, L =>
    match symEval now p L with
    | some (x, L1) =>
      match symEval now i L1 with
      | some (.int n, L2) => (symPadd x (scale * n) L2).map fun v => (v, L2)
      | _ => none
    | none => none
  | .load .ptr p, L =>
    match symEval now p L with
    | some (x, L1) => (symLoad x L1).map fun v => (v, L1)
    | none => none
  | .store t p e, L =>
    match symEval now p L with
    | some (x, L1) =>
      match symEval now e L1 with
      | some (v, L2) => (symStore t x v L2).map fun L3 => (v, L3)
      | none => none
    | none => none
  | .call f args, L =>
    match symArgs now args L with
    | some (vs, L1) => symCall now f vs L1
    | none => none
  | _, _ => none
/-- Arguments. -/
def symArgs (now : Int) : Args → SymSt → Option (List Val × SymSt)
  | .nil, L => some ([], L)
  | .cons e r, L =>
    match symEval now e L with
    | some (v, L1) =>
      match symArgs now r L1 with
      | some (vs, L2) => some (v :: vs, L2)
      | none => none
    | none => none
end

/-- The first `n` statements: the state after them, and the statements that follow. -/
def symRun (now : Int) : Nat → Stmt → SymSt → Option (SymSt × Stmt)
  | 0, b, L => some (L, b)
  | n + 1, .seq (.exp e) b, L =>
    match symEval now e L with
    | some (_, L1) => symRun now n b L1
    | none => none
  | n + 1, .seq (.declMem i k init fill) b, L =>
    symRun now n b { L with objs := L.objs ++ [init ++ List.replicate (k - init.length) fill], fr := L.fr.set i (.ptr (some (.stack L.objs.length, 0))) }
  | n + 1, .seq (.decl i) b, L => symRun now n b { L with fr := L.fr.set i .undef }
  | _, _, _ => none

theorem layMem_wf (L : SymSt) (h : Heap) (out : Bytes) : Wf (L.st h out) := by
  constructor
  · intro j hj
    simp [SymSt.st, layMem] at hj ⊢
    exact hj
  · intro i _
    rfl

theorem layMem_set (objs : List (List Val)) (out : Bytes) (i : Nat) (l : List Val) (h : i < objs.length) :
    upd (layMem objs out) (.stack i) (some l) = layMem (objs.set i l) out := by
  funext b
  simp only [upd]
  split
  · rename_i hb; subst hb; simp [layMem, h]
  · rename_i hb
    cases b with
    | stack j =>
      have : i ≠ j := fun e => hb (by rw [e])
      simp [layMem, this]
    | _ => rfl

theorem layMem_push (objs : List (List Val)) (out : Bytes) (l : List Val) :
    upd (layMem objs out) (.stack objs.length) (some l) = layMem (objs ++ [l]) out := by
  funext b
  simp only [upd]
  split
  · rename_i hb; subst hb; simp [layMem]
  · rename_i hb
    cases b with
    | stack j =>
      have : j ≠ objs.length := fun e => hb (by rw [e])
      simp only [layMem]
      by_cases hj : j < objs.length
      · rw [List.getElem?_append_left hj]
      · rw [List.getElem?_eq_none (by omega), List.getElem?_eq_none (by simp; omega)]
    | _ => rfl

theorem strlen_lit (s : Bytes) (h : 0 ∉ s) : strlen (s ++ [0]) = .ok s.length := by
  induction s with
  | nil => rfl
  | cons b t ih =>
    simp only [List.mem_cons, not_or] at h
    show (if b = 0 then _ else _) = _
    rw [if_neg (Ne.symm h.1)]
    show (do let n ← strlen (t ++ [0]); Except.ok (n + 1)) = _
    rw [ih h.2]
    rfl

theorem arith_add64 {cs : Bool} {x y : Int} (h : -9223372036854775808 ≤ x + y ∧ x + y < 9223372036854775808) :
    arith cs .add .i64 x y = .ok (x + y) := by
  show (if -(18446744073709551616 / 2) ≤ x + y ∧ x + y < 18446744073709551616 / 2 then _ else _) = _
  rw [if_pos (by omega)]

theorem mx_call {env : Env} {fuel n : Nat} {f : String} (h : f ≠ "printf") (vs : List Val) :
    (mx env fuel n).call f vs = (cx env fuel n).call f vs := if_neg h

section
variable {env : Env} {fuel n : Nat} {s : Sched} {h : Heap} {out : Bytes}

theorem symCall_sound {f : String} {vs : List Val} {L L' : SymSt} {v : Val} (e : symCall env.now f vs L = some (v, L')) (hn : L'.Ok) :
    L.Ok ∧ (mx env fuel (n + 1)).call f vs s (L.st h out) = .ok (v, L'.st h out) := by
  unfold symCall at e
  split at e
  · rename_i hf; subst hf
    split at e
    · cases e
      refine ⟨fun x hx => hn x (List.mem_cons_of_mem _ hx), ?_⟩
      rw [mx_call (by decide)]
      exact run_of_wp (wp_strlen env fuel _ (pts_lit _ _) (strlen_lit _ (hn _ (List.mem_cons_self ..))) ⟨rfl, rfl⟩)
    · cases e
  split at e
  · rename_i hf; subst hf
    split at e
    · cases e
      refine ⟨hn, ?_⟩
      rw [mx_call (by decide), cx_lib _ _ _ rfl]
      rfl
    · cases e
  split at e
  · rename_i hf; subst hf
    split at e
    · rename_i i
      split at e
      · rename_i l hl
        split at e
        · rename_i hll
          cases e
          refine ⟨hn, ?_⟩
          rw [mx_call (by decide), cx_fun _ _ _ rfl, encoding_params_init_text env fuel n s _ (layMem_wf L h out) (.stack i) l rfl hl hll]
          have := (List.getElem?_eq_some_iff.mp hl).1
          simp only [SymSt.st, layMem_set _ _ _ _ this, List.length_set]
        · cases e
      · cases e
    · cases e
  split at e
  · rename_i hf; subst hf
    split at e
    · rename_i i
      split at e
      · rename_i l hl
        split at e
        · rename_i hll
          cases e
          refine ⟨hn, ?_⟩
          rw [mx_call (by decide), cx_fun _ _ _ rfl, params_init_text env fuel n s _ (layMem_wf L h out) (.stack i) l rfl hl hll]
          have := (List.getElem?_eq_some_iff.mp hl).1
          simp only [SymSt.st, layMem_set _ _ _ _ this, List.length_set]
        · cases e
      · cases e
    · cases e
  · cases e

theorem symStore_sound {c : Ctx} {t : STy} {p v : Val} {L L' : SymSt} (e : symStore t p v L = some L') :
    L'.need = L.need ∧ storeV c t p v s (L.st h out) = .ok ((), L'.st h out) := by
  unfold symStore at e
  split at e
  · rename_i i o
    split at e
    · rename_i l w hl hw
      split at e
      · rename_i ho
        cases e
        refine ⟨rfl, ?_⟩
        have hi := (List.getElem?_eq_some_iff.mp hl).1
        have hc : cont c.glob (L.st h out).mem (.stack i) = some l := hl
        simp only [storeV, X.bind_apply, obj_cont hc, hw, X.lift_ok, if_pos ho, setObj]
        simp only [SymSt.st, layMem_set _ _ _ _ hi, List.length_set]
      · cases e
    · cases e
  · cases e

theorem symLoad_sound {c : Ctx} {p v : Val} {L : SymSt} (e : symLoad p L = some v) :
    loadV c .ptr p s (L.st h out) = .ok (v, L.st h out) := by
  unfold symLoad at e
  split at e
  · rename_i i o
    split at e
    · rename_i l hl
      split at e
      · cases e
      · rename_i ho
        split at e
        · rename_i q hq
          cases e
          have hc : cont c.glob (L.st h out).mem (.stack i) = some l := hl
          simp only [loadV, X.bind_apply, obj_cont hc, if_neg ho, hq]
          rfl
        · cases e
    · cases e
  · cases e

theorem symPadd_sound {c : Ctx} {p v : Val} {d : Int} {L : SymSt} (e : symPadd p d L = some v) :
    paddV c p d s (L.st h out) = .ok (v, L.st h out) := by
  unfold symPadd at e
  split at e
  · rename_i i o
    split at e
    · rename_i l hl
      split at e
      · rename_i ho
        cases e
        have hc : cont c.glob (L.st h out).mem (.stack i) = some l := hl
        simp only [paddV, X.bind_apply, obj_cont hc, X.ite_apply, if_pos ho]
        rfl
      · cases e
    · cases e
  · cases e

theorem symEval_all (e : Expr) : (∀ (L L' : SymSt) (v : Val), symEval env.now e L = some (v, L') → L'.Ok →
    L.Ok ∧ eval (mx env fuel (n + 1)) e s (L.st h out) = .ok (v, L'.st h out)) := by
  apply Expr.rec (motive_1 := fun e => ∀ (L L' : SymSt) (v : Val), symEval env.now e L = some (v, L') → L'.Ok →
      L.Ok ∧ eval (mx env fuel (n + 1)) e s (L.st h out) = .ok (v, L'.st h out))
    (motive_2 := fun a => ∀ (L L' : SymSt) (vs : List Val), symArgs env.now a L = some (vs, L') → L'.Ok →
      L.Ok ∧ evalArgs (mx env fuel (n + 1)) a s (L.st h out) = .ok (vs, L'.st h out))
  case num => intro k L L' v e hn; cases e; exact ⟨hn, rfl⟩
  case null => intro L L' v e hn; cases e; exact ⟨hn, rfl⟩
  case str => intro k L L' v e hn; cases e; exact ⟨hn, rfl⟩
  case loc => intro k L L' v e hn; cases e; exact ⟨hn, rfl⟩
  case ar =>
    intro op t a b iha ihb L L' v e hn
    cases op <;> cases t <;> try (simp [symEval] at e; done)
    · simp only [symEval] at e
      split at e
      · rename_i x L1 e1
        split at e
        · rename_i y L2 e2
          cases e
          obtain ⟨h2, q2⟩ := ihb _ _ _ e2 fun x hx => hn x (List.mem_cons_of_mem _ hx)
          obtain ⟨h1, q1⟩ := iha _ _ _ e1 h2
          refine ⟨h1, ?_⟩
          simp only [eval, X.bind_apply, q1, q2, Val.getInt, X.lift_ok, arith_add64 (hn _ (List.mem_cons_self ..))]
          rfl
        · cases e
      · cases e
    · simp only [symEval] at e
      split at e
      · rename_i x L1 e1
        split at e
        · rename_i y L2 e2
          split at e
          · cases e
          · rename_i hy
            cases e
            obtain ⟨h2, q2⟩ := ihb _ _ _ e2 hn
            obtain ⟨h1, q1⟩ := iha _ _ _ e1 h2
            refine ⟨h1, ?_⟩
            simp only [eval, X.bind_apply, q1, q2, Val.getInt, X.lift_ok, arith, ovf, ITy.signed, ITy.modulus, if_neg hy]
            rfl
        · cases e
      · cases e
  case padd =>
    intro sc p i ihp ihi L L' v e hn
    simp only [symEval] at e
    split at e
    · rename_i x L1 e1
      split at e
      · rename_i k L2 e2
        obtain ⟨w, ew, hw⟩ := Option.map_eq_some_iff.mp e
        cases hw
        obtain ⟨h2, q2⟩ := ihi _ _ _ e2 hn
        obtain ⟨h1, q1⟩ := ihp _ _ _ e1 h2
        refine ⟨h1, ?_⟩
        simp only [eval, X.bind_apply, q1, q2, Val.getInt, X.lift_ok, symPadd_sound ew]
      · cases e
    · cases e
  case load =>
    intro t p ihp L L' v e hn
    cases t with
    | int => simp [symEval] at e
    | ptr => ?_
    simp only [symEval] at e
    split at e
    · rename_i x L1 e1
      obtain ⟨w, ew, hw⟩ := Option.map_eq_some_iff.mp e
      cases hw
      obtain ⟨h1, q1⟩ := ihp _ _ _ e1 hn
      refine ⟨h1, ?_⟩
      simp only [eval, X.bind_apply, q1, symLoad_sound ew]
    · cases e
  case store =>
    intro t p a ihp iha L L' v e hn
    simp only [symEval] at e
    split at e
    · rename_i x L1 e1
      split at e
      · rename_i k L2 e2
        obtain ⟨w, ew, hw⟩ := Option.map_eq_some_iff.mp e
        cases hw
        obtain ⟨h3, q3⟩ := symStore_sound (c := mx env fuel (n + 1)) (s := s) (h := h) (out := out) ew
        obtain ⟨h2, q2⟩ := iha _ _ _ e2 (fun x hx => hn x (h3 ▸ hx))
        obtain ⟨h1, q1⟩ := ihp _ _ _ e1 h2
        refine ⟨h1, ?_⟩
        simp only [eval, X.bind_apply, q1, q2, q3]
        rfl
      · cases e
    · cases e
  case call =>
    intro f args iha L L' v e hn
    simp only [symEval] at e
    split at e
    · rename_i vs L1 e1
      obtain ⟨h2, q2⟩ := symCall_sound (fuel := fuel) (n := n) (s := s) (h := h) (out := out) e hn
      obtain ⟨h1, q1⟩ := iha _ _ _ e1 h2
      refine ⟨h1, ?_⟩
      simp only [eval, X.bind_apply, q1, q2]
    · cases e
  case nil => intro L L' v e hn; cases e; exact ⟨hn, rfl⟩
  case cons =>
    intro a r iha ihr L L' v e hn
    simp only [symArgs] at e
    split at e
    · rename_i x L1 e1
      split at e
      · rename_i k L2 e2
        cases e
        obtain ⟨h2, q2⟩ := ihr _ _ _ e2 hn
        obtain ⟨h1, q1⟩ := iha _ _ _ e1 h2
        refine ⟨h1, ?_⟩
        simp only [evalArgs, X.bind_apply, q1, q2]
        rfl
      · cases e
    · cases e
  all_goals
    intros
    rename_i e _
    simp [symEval] at e

/-- The execution of the first statements. -/
theorem symRun_sound (k : Nat) : ∀ (b : Stmt) (L L' : SymSt) (r : Stmt), symRun env.now k b L = some (L', r) → L'.Ok →
    L.Ok ∧ exec (mx env fuel (n + 1)) b .run s (L.st h out) = exec (mx env fuel (n + 1)) r .run s (L'.st h out) := by
  induction k with
  | zero =>
    intro b L L' r e hn
    cases e
    exact ⟨hn, rfl⟩
  | succ k ih =>
    intro b L L' r e hn
    cases b with
    | seq a b =>
      cases a with
      | exp a =>
        simp only [symRun] at e
        split at e
        · rename_i v L1 e1
          obtain ⟨h1, q1⟩ := ih _ _ _ _ e hn
          obtain ⟨h0, q0⟩ := symEval_all (n := n) (fuel := fuel) (s := s) (h := h) (out := out) _ _ _ _ e1 h1
          refine ⟨h0, ?_⟩
          rw [← q1]
          simp only [exec, X.bind_apply, q0]
          rfl
        · cases e
      | declMem =>
        simp only [symRun] at e
        obtain ⟨h1, q1⟩ := ih _ _ _ _ e hn
        refine ⟨h1, ?_⟩
        rw [← q1]
        simp only [exec, X.bind_apply]
        simp only [SymSt.st, allocLocal, layMem_push, List.length_append, List.length_singleton]
        rfl
      | decl =>
        simp only [symRun] at e
        obtain ⟨h1, q1⟩ := ih _ _ _ _ e hn
        refine ⟨h1, ?_⟩
        rw [← q1]
        simp only [exec, X.bind_apply, setLoc_apply]
        rfl
      | _ => simp [symRun] at e
    | _ => simp [symRun] at e

end

theorem exec_exp {c : Ctx} {e : Expr} {b : Stmt} {s : Sched} {st st' : St} {v : Val} (h : eval c e s st = .ok (v, st')) :
    exec c (.seq (.exp e) b) .run s st = exec c b .run s st' := by
  simp only [exec, X.bind_apply, h]
  rfl

theorem exec_exp_error {c : Ctx} {e : Expr} {b : Stmt} {s : Sched} {st : St} {x : Err} (h : eval c e s st = .error x) :
    exec c (.seq (.exp e) b) .run s st = .error x := by
  simp only [exec, X.bind_apply, h]

theorem eval_load {c : Ctx} {t : STy} {i : Nat} {b : Blk} {v w : Val} {s : Sched} {st : St} (hi : st.fr.getD i .undef = .ptr (some (b, 0)))
    (hb : b.own = true) (hm : st.mem b = some [v]) (ht : asTy c.cs t v = .ok w) : eval c (.load t (.loc i)) s st = .ok (w, st) := by
  simp only [eval, X.bind_apply, getLoc_apply, hi, loadV, obj_own hb hm]
  show X.lift (asTy c.cs t v) s st = _
  rw [ht]
  rfl

theorem eval_load_undef {c : Ctx} {t : STy} {i : Nat} {b : Blk} {s : Sched} {st : St} (hi : st.fr.getD i .undef = .ptr (some (b, 0)))
    (hb : b.own = true) (hm : st.mem b = some [.undef]) : eval c (.load t (.loc i)) s st = .error .uninit := by
  simp only [eval, X.bind_apply, getLoc_apply, hi, loadV, obj_own hb hm]
  cases t <;> rfl

theorem evalArgs_cons {c : Ctx} {e : Expr} {r : Args} {v : Val} {vs : List Val} {s : Sched} {st st1 st2 : St} (h : eval c e s st = .ok (v, st1))
    (h' : evalArgs c r s st1 = .ok (vs, st2)) : evalArgs c (.cons e r) s st = .ok (v :: vs, st2) := by
  simp only [evalArgs, X.bind_apply, h, h']
  rfl

theorem eval_call {c : Ctx} {f : String} {args : Args} {vs : List Val} {s : Sched} {st st1 : St} (h : evalArgs c args s st = .ok (vs, st1)) :
    eval c (.call f args) s st = c.call f vs s st1 := by
  simp only [eval, X.bind_apply, h]

theorem eval_loc {c : Ctx} {i : Nat} {v : Val} {s : Sched} {st : St} (h : st.fr.getD i .undef = v) : eval c (.loc i) s st = .ok (v, st) := by
  simp only [eval, getLoc_apply, h]

/-- `r == 0 ? "successfully" : ""` -/
theorem eval_success {c : Ctx} {i : Nat} {rc : Int} {s : Sched} {st : St} (hi : st.fr.getD i .undef = .int rc) :
    eval c (.cond (.cmp .eq (.loc i) (.num 0)) (.str (str "successfully")) (.str [])) s st =
      .ok (.ptr (some (.lit (if rc = 0 then str "successfully" else []), 0)), st) := by
  simp only [eval, X.bind_apply, getLoc_apply, hi, X.pure_apply, compareV, X.lift_ok, COp.ints, Val.ofBool, Val.truth]
  by_cases h : rc = 0 <;> simp [h, X.pure_apply]

/-! ## `printf` -/

section
variable {env : Env} {s : Sched} {st : St}

theorem formatted_char {c : Ctx} {x : UInt8} (h : x ≠ 37) (f : Bytes) (vs : List Val) :
    formatted c 0 (x :: f) vs = (do let t ← formatted c 0 f vs; pure (x :: t)) := if_neg h

theorem formatted_s_eq {c : Ctx} (r : Bytes) (v : Val) (vs : List Val) : formatted c 0 (37 :: 115 :: r) (v :: vs) = (do
    let b ← bytesAt c v
    let n ← X.res (strlen b)
    let t ← formatted c 0 r vs
    pure (b.take n ++ t)) := rfl

theorem formatted_d_eq {c : Ctx} (r : Bytes) (v : Val) (vs : List Val) : formatted c 0 (37 :: 100 :: r) (v :: vs) = (do
    let k ← X.lift v.getInt
    let t ← formatted c 0 r vs
    pure (printInt (wrap c.cs .i32 k) ++ t)) := rfl

theorem formatted_lit {a r : Bytes} (h : 37 ∉ a) {vs : List Val} {t : Bytes} (e : formatted (lctx env) 0 r vs s st = .ok (t, st)) :
    formatted (lctx env) 0 (a ++ r) vs s st = .ok (a ++ t, st) := by
  induction a with
  | nil => exact e
  | cons x a ih =>
    simp only [List.mem_cons, not_or] at h
    rw [List.cons_append, formatted_char (Ne.symm h.1), X.bind_apply, ih h.2]
    rfl

theorem formatted_lit_error {a r : Bytes} (h : 37 ∉ a) {vs : List Val} {x : Err} (e : formatted (lctx env) 0 r vs s st = .error x) :
    formatted (lctx env) 0 (a ++ r) vs s st = .error x := by
  induction a with
  | nil => exact e
  | cons x a ih =>
    simp only [List.mem_cons, not_or] at h
    rw [List.cons_append, formatted_char (Ne.symm h.1), X.bind_apply, ih h.2]

theorem formatted_s {r b : Bytes} {v : Val} {n : Nat} {vs : List Val} (hb : Pts globs st.mem v (some b)) (hn : strlen b = .ok n) :
    formatted (lctx env) 0 (37 :: 115 :: r) (v :: vs) s st =
      match formatted (lctx env) 0 r vs s st with | .error e => .error e | .ok (t, st') => .ok (b.take n ++ t, st') := by
  have hb := bytesAt_pts (env := env) (s := s) hb
  rw [formatted_s_eq]
  simp only [X.bind_apply, hb, hn, X.res_ok]
  cases formatted (lctx env) 0 r vs s st <;> rfl

theorem formatted_d {r : Bytes} {k : Int} {vs : List Val} :
    formatted (lctx env) 0 (37 :: 100 :: r) (.int k :: vs) s st =
      match formatted (lctx env) 0 r vs s st with
      | .error e => .error e
      | .ok (t, st') => .ok (printInt (wrap env.charSigned .i32 k) ++ t, st') := by
  rw [formatted_d_eq]
  simp only [X.bind_apply, Val.getInt, X.lift_ok]
  cases formatted (lctx env) 0 r vs s st <;> rfl

theorem formatted_null {r : Bytes} {vs : List Val} :
    formatted (lctx env) 0 (37 :: 115 :: r) (.ptr none :: vs) s st = .error (.ub .nullDeref) := by
  rw [formatted_s_eq]
  rfl

theorem printf_run {f : Bytes} {vs : List Val} {t out : Bytes} (h0 : 0 ∉ f) (ho : st.mem (.ext 0) = some (cells out))
    (e : formatted (lctx env) 0 f vs s st = .ok (t, st)) :
    xPrintf (lctx env) (.ptr (some (.lit f, 0)) :: vs) s st =
      .ok (.undef, { st with mem := upd st.mem (.ext 0) (some (cells (out ++ t))) }) := by
  have hb := bytesAt_pts (env := env) (s := s) (pts_lit st.mem f)
  have hx : obj (lctx env) (.ext 0) s st = .ok (cells out, st) := obj_own rfl ho
  simp only [xPrintf, X.bind_apply, hb, strlen_lit f h0, X.res_ok, List.take_left, e, hx, setObj, cells_append]
  rfl

theorem printf_error {f : Bytes} {vs : List Val} {x : Err} (h0 : 0 ∉ f)
    (e : formatted (lctx env) 0 f vs s st = .error x) :
    xPrintf (lctx env) (.ptr (some (.lit f, 0)) :: vs) s st = .error x := by
  have hb := bytesAt_pts (env := env) (s := s) (pts_lit st.mem f)
  simp only [xPrintf, X.bind_apply, hb, strlen_lit f h0, X.res_ok, List.take_left, e]

end

end L8w8jwt.C
