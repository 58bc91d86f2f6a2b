import Verif.C.KeygenSem
/-!
# The text of examples/eddsa/keygen.c, step by step
-/

namespace L8w8jwt.C

section
variable {c : Ctx} {s : Sched} {st : St}

theorem exec_seq {a b : Stmt} {st' : St} (h : exec c a .run s st = .ok (.next .run, st')) : exec c (.seq a b) .run s st = exec c b .run s st' := by
  simp only [exec, X.bind_apply, h]

theorem exec_last {e : Expr} {st' : St} {v : Val} (h : eval c e s st = .ok (v, st')) : exec c (.exp e) .run s st = .ok (.next .run, st') := by
  simp only [exec, X.bind_apply, h]
  rfl

/-- A loop that goes through the states `f 0`, ..., `f n`. -/
theorem exec_loop {e : Expr} {b : Stmt} {step : Expr} (f : Nat → St) (n : Nat)
    (hc : ∀ i, i ≤ n → eval c e s (f i) = .ok (.ofBool (decide (i < n)), f i))
    (hb : ∀ i, i < n → ∃ st' v, exec c b .run s (f i) = .ok (.next .run, st') ∧ eval c step s st' = .ok (v, f (i + 1)))
    (hf : n < c.fuel) : exec c (.loop e b step) .run s (f 0) = .ok (.next .run, f n) := by
  have main : ∀ (m i : Nat), i ≤ n → n - i < m →
      iter (do let v ← eval c e; X.lift v.truth) (exec c b .run) (do let _ ← eval c step; pure ()) m s (f i) = .ok (.next .run, f n) := by
    intro m
    induction m with
    | zero => intro i _ h; omega
    | succ m ih =>
      intro i hi hm
      have h1 := hc i hi
      unfold iter
      simp only [X.bind_apply, h1, truth_ofBool, X.lift_ok]
      by_cases hl : i < n
      · obtain ⟨st', v, h2, h3⟩ := hb i hl
        simp only [hl, decide_true, if_true, X.bind_apply, h2, h3, X.pure_apply]
        exact ih (i + 1) hl (by omega)
      · have : i = n := by omega
        subst this
        simp only [hl, decide_false]
        rfl
  simp only [exec]
  exact main c.fuel 0 (by omega) (by omega)

theorem eval_num (v : Int) : eval c (.num v) s st = .ok (.int v, st) := rfl

theorem eval_ar {op : AOp} {t : ITy} {a b : Expr} {x y z : Int} {st1 st2 : St} (ha : eval c a s st = .ok (.int x, st1)) (hb : eval c b s st1 = .ok (.int y, st2))
    (h : arith c.cs op t x y = .ok z) : eval c (.ar op t a b) s st = .ok (.int z, st2) := by
  simp only [eval, X.bind_apply, ha, hb, Val.getInt, X.lift_ok, h, X.pure_apply]

theorem eval_cast {t : ITy} {a : Expr} {x y : Int} {st1 : St} (ha : eval c a s st = .ok (.int x, st1)) (h : wrap c.cs t x = y) :
    eval c (.cast t a) s st = .ok (.int y, st1) := by
  simp only [eval, X.bind_apply, ha, Val.getInt, X.lift_ok, h, X.pure_apply]

theorem eval_lt {a b : Expr} {x y : Nat} {st1 st2 : St} (ha : eval c a s st = .ok (.int x, st1)) (hb : eval c b s st1 = .ok (.int y, st2)) :
    eval c (.cmp .lt a b) s st = .ok (.ofBool (decide (x < y)), st2) := by
  simp only [eval, X.bind_apply, ha, hb]
  show Except.ok (Val.ofBool (decide ((x : Int) < y)), st2) = _
  rw [show decide ((x : Int) < y) = decide (x < y) by simp]

theorem eval_set {i : Nat} {a : Expr} {v : Val} {st1 : St} (ha : eval c a s st = .ok (v, st1)) :
    eval c (.set i a) s st = .ok (v, { st1 with fr := st1.fr.set i v }) := by
  simp only [eval, X.bind_apply, ha, setLoc, X.pure_apply]

theorem eval_padd {a b : Expr} {B : Blk} {o d : Int} {st1 st2 : St} {l : List Val} (ha : eval c a s st = .ok (.ptr (some (B, o)), st1))
    (hb : eval c b s st1 = .ok (.int d, st2)) (hB : cont c.glob st2.mem B = some l) (h0 : 0 ≤ o + d) (hl : o + d ≤ l.length) :
    eval c (.padd 1 a b) s st = .ok (.ptr (some (B, o + d)), st2) := by
  simp only [eval, X.bind_apply, ha, hb, Val.getInt, X.lift_ok, Int.one_mul, paddV_cont hB h0 hl]

theorem eval_load_cell {t : STy} {a : Expr} {B : Blk} {o : Int} {st1 : St} {l : List Val} {v w : Val} (ha : eval c a s st = .ok (.ptr (some (B, o)), st1))
    (hB : cont c.glob st1.mem B = some l) (h0 : 0 ≤ o) (hv : l[o.toNat]? = some v) (hw : asTy c.cs t v = .ok w) :
    eval c (.load t a) s st = .ok (w, st1) := by
  simp only [eval, X.bind_apply, ha, loadV_cont hB h0 hv hw]

theorem eval_store {t : STy} {a b : Expr} {B : Blk} {o : Int} {st1 st2 : St} {l : List Val} {v w : Val} (ha : eval c a s st = .ok (.ptr (some (B, o)), st1))
    (hb : eval c b s st1 = .ok (v, st2)) (hown : B.own = true) (hB : st2.mem B = some l) (h0 : 0 ≤ o) (hl : o.toNat < l.length) (hw : toCell t v = .ok w) :
    eval c (.store t a b) s st = .ok (v, { st2 with mem := upd st2.mem B (some (l.set o.toNat w)) }) := by
  simp only [eval, X.bind_apply, ha, hb, storeV_own hown hB h0 hl hw, X.pure_apply]

end

variable {env : Env} {k : KeyLib} {fuel : Nat} {s : Sched} {args : List Bytes} {objs : List (List Val)} {out : Bytes}

theorem keyMem_push (l : List Val) : upd (keyMem args objs out) (.stack objs.length) (some l) = keyMem args (objs ++ [l]) out := by
  funext b
  unfold upd
  split
  · rename_i h
    subst h
    simp [keyMem]
  · rename_i h
    cases b with
    | stack i =>
      have : i ≠ objs.length := fun h' => h (by rw [h'])
      simp only [keyMem]
      by_cases hi : i < objs.length
      · rw [List.getElem?_append_left hi]
      · rw [List.getElem?_eq_none (by omega), List.getElem?_eq_none (by simp; omega)]
    | _ => rfl

theorem keyMem_set {i : Nat} (l : List Val) (h : i < objs.length) : upd (keyMem args objs out) (.stack i) (some l) = keyMem args (objs.set i l) out := by
  funext b
  unfold upd
  split
  · rename_i h'
    subst h'
    simp [keyMem, h]
  · rename_i h'
    cases b with
    | stack j =>
      have : i ≠ j := fun h'' => h' (by rw [h''])
      simp only [keyMem]
      rw [List.getElem?_set_ne this]
    | _ => rfl

theorem keyMem_out (out' : Bytes) : upd (keyMem args objs out) (.ext 0) (some (cells out')) = keyMem args objs out' := by
  funext b
  unfold upd
  split
  · rename_i h'
    subst h'
    rfl
  · rename_i h'
    cases b with
    | ext i =>
      have : i ≠ 0 := fun h => h' (by rw [h])
      simp only [keyMem, if_neg this]
    | _ => rfl

theorem key_decl {i n : Nat} {init : List Val} {fill : Val} {b : Stmt} {fr : List Val} :
    exec (kx env k fuel) (.seq (.declMem i n init fill) b) .run s (keySt args fr objs out) =
      exec (kx env k fuel) b .run s (keySt args (fr.set i (.ptr (some (.stack objs.length, 0)))) (objs ++ [init ++ List.replicate (n - init.length) fill]) out) := by
  refine exec_seq ?_
  simp only [exec, X.bind_apply, allocLocal, keySt, keyMem_push]
  rw [show (objs ++ [init ++ List.replicate (n - init.length) fill]).length = objs.length + 1 by simp]
  rfl

theorem keyCalls_printf (vs : List Val) : keyCalls env k "printf" vs = xPrintf (lctx env) vs := rfl

theorem kx_call : (kx env k fuel).call = keyCalls env k := rfl

theorem keyCalls_strlen (p : Val) : keyCalls env k "strlen" [p] = lib env "strlen" [p] := rfl

/-- Printing. -/
theorem key_printf {f t : Bytes} {as : Args} {vs : List Val} {fr : List Val} (h0 : 0 ∉ f) (ha : evalArgs (kx env k fuel) as s (keySt args fr objs out) = .ok (vs, keySt args fr objs out))
    (e : formatted (lctx env) 0 f vs s (keySt args fr objs out) = .ok (t, keySt args fr objs out)) :
    eval (kx env k fuel) (.call "printf" (.cons (.str f) as)) s (keySt args fr objs out) = .ok (.undef, keySt args fr objs (out ++ t)) := by
  refine (eval_call (evalArgs_cons rfl ha)).trans ?_
  refine (printf_run (env := env) (out := out) h0 rfl e).trans ?_
  simp only [keySt, keyMem_out]

/-- The cells of a byte array. -/
theorem key_byte {i j n : Nat} {fr : List Val} {b : Bytes} {x : UInt8} (hi : fr.getD i .undef = .ptr (some (.stack n, 0))) (hj : fr.getD j .undef = .int m)
    (hn : objs[n]? = some (cells b)) (hm : b[m.toNat]? = some x) (h0 : 0 ≤ m) :
    eval (kx env k fuel) (.load (.int .u8) (.padd 1 (.loc i) (.loc j))) s (keySt args fr objs out) = .ok (.int x.toNat, keySt args fr objs out) := by
  have hlt : m.toNat < b.length := (List.getElem?_eq_some_iff.mp hm).1
  have hc : (keySt args fr objs out).mem (.stack n) = some (cells b) := hn
  simp only [eval, X.bind_apply, getLoc_apply]
  rw [show (keySt args fr objs out).fr = fr from rfl, hi, hj]
  simp only [Val.getInt, X.lift_ok]
  rw [paddV_cont (l := cells b) (by rw [cont_own rfl]; exact hc) (by omega) (by rw [cells_length]; omega)]
  simp only
  rw [loadV_cont (l := cells b) (v := .int x.toNat) (w := .int x.toNat) (by rw [cont_own rfl]; exact hc) (by omega)
    (by rw [cells_get, show (0 + 1 * m).toNat = m.toNat by omega, hm]; rfl) (by simp only [asTy]; rw [wrap_u8])]

/-- Two hexadecimal digits for each byte. -/
def hexDump (b : Bytes) : Bytes := b.flatMap (fun x => [printHex (x.toNat / 16), printHex (x.toNat % 16)])

/-- Counting. -/
theorem key_next {fr : List Val} {j i : Nat} (hj : j < fr.length) (hi : i < 2147483647) :
    eval (kx env k fuel) (.set j (.ar .add .i32 (.loc j) (.num 1))) s (keySt args (fr.set j (.int i)) objs out) =
      .ok (.int (i + 1 : Nat), keySt args (fr.set j (.int (i + 1 : Nat))) objs out) := by
  have e : ((i + 1 : Nat) : Int) = (i : Int) + 1 := by omega
  rw [e]
  refine (eval_set (eval_ar (eval_loc (getD_set_same _ _ _ _ hj)) (eval_num 1) ((arith_add _ _ _ _).trans (ovf_i32 _ (v := i + 1) (by omega) (by omega))))).trans ?_
  simp only [keySt, List.set_set]

theorem hex_loop {fr : List Val} {p j o n : Nat} {b : Bytes} (hb : b.length = n) (hn : n ≤ 64) (ho : objs[o]? = some (cells b)) (hpj : j ≠ p)
    (hp : fr.getD p .undef = .ptr (some (.stack o, 0))) (hj : j < fr.length) (hf : n < fuel) :
    exec (kx env k fuel) (.loop (.cmp .lt (.cast .u64 (.loc j)) (.num n))
      (.exp (.call "printf" (.cons (.str [37, 48, 50, 120]) (.cons (.load (.int .u8) (.padd 1 (.loc p) (.loc j))) .nil))))
      (.set j (.ar .add .i32 (.loc j) (.num 1)))) .run s (keySt args (fr.set j (.int 0)) objs out) =
      .ok (.next .run, keySt args (fr.set j (.int n)) objs (out ++ hexDump b)) := by
  have := exec_loop (c := kx env k fuel) (s := s) (e := .cmp .lt (.cast .u64 (.loc j)) (.num n))
    (b := .exp (.call "printf" (.cons (.str [37, 48, 50, 120]) (.cons (.load (.int .u8) (.padd 1 (.loc p) (.loc j))) .nil))))
    (step := .set j (.ar .add .i32 (.loc j) (.num 1))) (fun i => keySt args (fr.set j (.int i)) objs (out ++ hexDump (b.take i))) n ?_ ?_ hf
  · simp only [List.take_zero, hexDump, List.flatMap_nil, List.append_nil] at this
    rw [show b.take n = b by rw [← hb, List.take_length]] at this
    exact this
  · intro i hi
    exact eval_lt (eval_cast (eval_loc (getD_set_same _ _ _ _ hj)) (wrap_u64 _ _ (by omega))) (eval_num _)
  · intro i hi
    have hx : b[i]? = some (b[i]'(by omega)) := List.getElem?_eq_getElem (by omega)
    refine ⟨_, .int (i + 1 : Nat), exec_last (key_printf (by decide) (evalArgs_cons (key_byte (m := i) (x := b[i]'(by omega)) (by rw [getD_set_ne _ _ _ _ _ hpj]; exact hp) (getD_set_same _ _ _ _ hj) ho
      hx (by omega)) rfl) (t := [printHex ((b[i]'(by omega)).toNat / 16), printHex ((b[i]'(by omega)).toNat % 16)]) ?_), ?_⟩
    · rfl
    · rw [key_next hj (by omega)]
      rw [show b.take (i + 1) = b.take i ++ [b[i]'(by omega)] by rw [List.take_add_one, hx]; rfl]
      simp only [hexDump, List.flatMap_append, List.append_assoc]
      rfl

/-- Hashing the arguments. -/
theorem args_loop {fr : List Val} {o : Nat} (h0 : fr.getD 0 .undef = .int args.length) (h1 : fr.getD 1 .undef = .ptr (some (.ext 1, 0)))
    (h6 : fr.getD 6 .undef = .ptr (some (.stack o, 0))) (hl : 9 ≤ fr.length) (ho : o < objs.length) (hnul : ∀ a ∈ args, 0 ∉ a)
    (hn : args.length < 2147483648) (hf : args.length < fuel) :
    ∃ v, exec (kx env k fuel) Ex.Keygen.main.loop1 .run s (keySt args (fr.set 7 (.int 0)) (objs.set o []) out) =
      .ok (.next .run, keySt args ((fr.set 8 v).set 7 (.int args.length)) (objs.set o (cells args.flatten)) out) := by
  let w : Nat → Val := fun i => if i = 0 then fr.getD 8 .undef else .ptr (some (.lit (args.getD (i - 1) []), 0))
  refine ⟨w args.length, ?_⟩
  have := exec_loop (c := kx env k fuel) (s := s) (e := .cmp .lt (.loc 7) (.loc 0))
    (b := .seq (.exp (.set 8 (.load .ptr (.padd 1 (.loc 1) (.loc 7))))) (.exp (.call "sha512_update"
      (.cons (.loc 6) (.cons (.loc 8) (.cons (.call "strlen" (.cons (.loc 8) .nil)) .nil))))))
    (step := .set 7 (.ar .add .i32 (.loc 7) (.num 1)))
    (fun i => keySt args ((fr.set 8 (w i)).set 7 (.int i)) (objs.set o (cells (args.take i).flatten)) out) args.length ?_ ?_ hf
  · simp only [List.take_zero, List.flatten_nil, List.take_length] at this
    rw [show fr.set 8 (w 0) = fr by
      apply List.ext_getElem?
      intro j
      by_cases hj : 8 = j
      · subst hj
        rw [List.getElem?_set_self (by omega), List.getElem?_eq_getElem (by omega)]
        simp [w, List.getElem?_eq_getElem (show 8 < fr.length by omega)]
      · rw [List.getElem?_set_ne hj]] at this
    exact this
  · intro i hi
    have e : ((fr.set 8 (w i)).set 7 (Val.int i)).getD 7 .undef = .int i := getD_set_same _ _ _ _ (by simp; omega)
    have e0 : ((fr.set 8 (w i)).set 7 (Val.int i)).getD 0 .undef = .int args.length := by
      rw [getD_set_ne _ _ _ _ _ (by omega), getD_set_ne _ _ _ _ _ (by omega), h0]
    exact eval_lt (eval_loc e) (eval_loc e0)
  · intro i hi
    have hlen : (fr.set 8 (w i)).length = fr.length := by simp
    have e1 : eval (kx env k fuel) (.set 8 (.load .ptr (.padd 1 (.loc 1) (.loc 7)))) s
        (keySt args ((fr.set 8 (w i)).set 7 (.int i)) (objs.set o (cells (args.take i).flatten)) out) =
        .ok (.ptr (some (.lit args[i], 0)), keySt args ((fr.set 8 (w (i + 1))).set 7 (.int i)) (objs.set o (cells (args.take i).flatten)) out) := by
      refine (eval_set (eval_load_cell (l := argv args) (v := .ptr (some (.lit args[i], 0))) (w := .ptr (some (.lit args[i], 0)))
        (eval_padd (o := 0) (d := i) (B := .ext 1) (l := argv args) (eval_loc ?_) (eval_loc (getD_set_same _ _ _ _ (by omega))) rfl ?_ ?_) rfl ?_ ?_ rfl)).trans ?_
      · show ((fr.set 8 (w i)).set 7 (.int i)).getD 1 .undef = _
        rw [getD_set_ne _ _ _ _ _ (by omega), getD_set_ne _ _ _ _ _ (by omega), h1]
      · omega
      · simp [argv]; omega
      · omega
      · rw [show (0 + (i : Int)).toNat = i by omega, argv, List.getElem?_append_left (by simpa using hi)]
        simp [hi]
      · simp only [keySt]
        rw [List.set_comm _ _ (show 7 ≠ 8 by omega), List.set_set]
        simp [w, hi]
    have e6 : ((fr.set 8 (w (i + 1))).set 7 (Val.int i)).getD 6 .undef = .ptr (some (.stack o, 0)) := by
      rw [getD_set_ne _ _ _ _ _ (by omega), getD_set_ne _ _ _ _ _ (by omega), h6]
    have e8 : ((fr.set 8 (w (i + 1))).set 7 (Val.int i)).getD 8 .undef = .ptr (some (.lit args[i], 0)) := by
      rw [getD_set_ne _ _ _ _ _ (by omega), getD_set_same _ _ _ _ (by omega)]
      simp [w, hi]
    have hz : 0 ∉ args[i] := hnul _ (List.getElem_mem hi)
    have e2 : eval (kx env k fuel) (.call "strlen" (.cons (.loc 8) .nil)) s
        (keySt args ((fr.set 8 (w (i + 1))).set 7 (.int i)) (objs.set o (cells (args.take i).flatten)) out) =
        .ok (.int args[i].length, keySt args ((fr.set 8 (w (i + 1))).set 7 (.int i)) (objs.set o (cells (args.take i).flatten)) out) := by
      refine (eval_call (evalArgs_cons (eval_loc e8) rfl)).trans ?_
      rw [kx_call, keyCalls_strlen, ← cx_lib env fuel 0 rfl]
      exact run_of_wp (wp_strlen env fuel _ (pts_lit _ _) (strlen_lit _ hz) ⟨rfl, rfl⟩)
    refine ⟨_, .int (i + 1 : Nat), (exec_exp e1).trans (exec_last ((eval_call (evalArgs_cons (eval_loc e6) (evalArgs_cons (eval_loc e8) (evalArgs_cons e2 rfl)))).trans
      (?_ : _ = Except.ok (.int 0, keySt args ((fr.set 8 (w (i + 1))).set 7 (.int i)) (objs.set o (cells (args.take (i + 1)).flatten)) out)))), key_next (by simp; omega) (by omega)⟩
    rw [kx_call]
    have hm : (keySt args ((fr.set 8 (w (i + 1))).set 7 (.int i)) (objs.set o (cells (args.take i).flatten)) out).mem (.stack o) =
        some (cells (args.take i).flatten) := by
      simp [keySt, keyMem, ho]
    simp only [keyCalls, X.bind_apply, obj_own (b := .stack o) rfl hm, readBytes_pts (pts_lit _ _) (show args[i].length ≤ (args[i] ++ [0]).length by simp),
      List.take_left, setObj_own (b := .stack o) rfl, X.pure_apply]
    rw [← cells_append, List.take_add_one, List.getElem?_eq_getElem hi]
    simp only [keySt, List.flatten_append, Option.toList_some, List.flatten_cons, List.flatten_nil,
      List.append_nil, List.length_set]
    rw [keyMem_set (i := o) _ (by simpa using ho), List.set_set]

/-- The seed after `i` steps of the second loop. -/
def mixSteps (seed md : Bytes) : Nat → Bytes
  | 0 => seed
  | i + 1 => (mixSteps seed md i).set (i % 16) ((mixSteps seed md i).getD (i % 16) 0 * md.getD i 0)

theorem mixSteps_length (seed md : Bytes) (i : Nat) : (mixSteps seed md i).length = seed.length := by
  induction i with
  | zero => rfl
  | succ i ih => simp [mixSteps, ih]

theorem mix_loop {fr : List Val} {seed md : Bytes} {r : List (List Val)} (h2 : fr.getD 2 .undef = .ptr (some (.stack 0, 0)))
    (h5 : fr.getD 5 .undef = .ptr (some (.stack 3, 0))) (hl : 9 < fr.length) (hs : seed.length = 32) (hm : md.length = 64)
    (hr : r[2]? = some (cells md)) (hf : 64 < fuel) :
    exec (kx env k fuel) Ex.Keygen.main.loop2 .run s (keySt args (fr.set 9 (.int 0)) (cells seed :: r) out) =
      .ok (.next .run, keySt args (fr.set 9 (.int 64)) (cells (mixSteps seed md 64) :: r) out) := by
  refine exec_loop (c := kx env k fuel) (s := s) (fun i => keySt args (fr.set 9 (.int i)) (cells (mixSteps seed md i) :: r) out) 64 ?_ ?_ hf
  · intro i hi
    have e : (fr.set 9 (Val.int i)).getD 9 .undef = .int i := getD_set_same _ _ _ _ hl
    exact eval_lt (eval_loc e) (eval_num 64)
  · intro i hi
    have e9 : (fr.set 9 (Val.int i)).getD 9 .undef = .int i := getD_set_same _ _ _ _ hl
    have e2 : (fr.set 9 (Val.int i)).getD 2 .undef = .ptr (some (.stack 0, 0)) := by rw [getD_set_ne _ _ _ _ _ (by omega), h2]
    have e5 : (fr.set 9 (Val.int i)).getD 5 .undef = .ptr (some (.stack 3, 0)) := by rw [getD_set_ne _ _ _ _ _ (by omega), h5]
    have hlen := mixSteps_length seed md i
    have hx : (mixSteps seed md i)[i % 16]? = some ((mixSteps seed md i).getD (i % 16) 0) := by
      rw [List.getD_eq_getElem?_getD, List.getElem?_eq_getElem (by omega)]; rfl
    have hy : md[i]? = some (md.getD i 0) := by
      rw [List.getD_eq_getElem?_getD, List.getElem?_eq_getElem (by omega)]; rfl
    generalize hX : (mixSteps seed md i).getD (i % 16) 0 = x at hx
    generalize hY : md.getD i 0 = y at hy
    have hm : (keySt args (fr.set 9 (Val.int i)) (cells (mixSteps seed md i) :: r) out).mem (.stack 0) = some (cells (mixSteps seed md i)) := rfl
    have hc : cont (kx env k fuel).glob (keySt args (fr.set 9 (Val.int i)) (cells (mixSteps seed md i) :: r) out).mem (.stack 0) =
        some (cells (mixSteps seed md i)) := by rw [cont_own rfl]; exact hm
    have hp : eval (kx env k fuel) (.padd 1 (.loc 2) (.ar .mod .i32 (.loc 9) (.num 16))) s
        (keySt args (fr.set 9 (Val.int i)) (cells (mixSteps seed md i) :: r) out) =
        .ok (.ptr (some (.stack 0, 0 + ((i % 16 : Nat) : Int))), keySt args (fr.set 9 (Val.int i)) (cells (mixSteps seed md i) :: r) out) :=
      eval_padd (eval_loc e2) (eval_ar (z := ((i % 16 : Nat) : Int)) (eval_loc e9) (eval_num 16)
        ((arith_mod _ _ (by omega) (by omega)).trans (ovf_i32 _ (by omega) (by omega)))) hc (by omega) (by rw [cells_length]; omega)
    have hq := key_byte (env := env) (k := k) (fuel := fuel) (s := s) (args := args) (objs := cells (mixSteps seed md i) :: r) (out := out) (fr := fr.set 9 (Val.int i)) (i := 5) (j := 9)
      (m := i) (n := 3) (x := y) e5 e9 (by exact hr) hy (by omega)
    refine ⟨_, .int (i + 1 : Nat), exec_last (eval_store (w := .int (x * y).toNat) hp (eval_cast (y := (x * y).toNat) (eval_ar (z := (x.toNat : Int) * y.toNat)
      (eval_load_cell (w := .int x.toNat) hp hc (by omega) (v := .int x.toNat) ?_ ?_) hq ?_) ?_) rfl hm (by omega) (by rw [cells_length]; omega) rfl), ?_⟩
    · rw [cells_get, show (0 + ((i % 16 : Nat) : Int)).toNat = i % 16 by omega, hx]; rfl
    · simp only [asTy]; rw [wrap_u8]
    · have h1 := x.toNat_lt
      have h2 := y.toNat_lt
      have h3 : x.toNat * y.toNat ≤ 255 * 255 := Nat.mul_le_mul (by omega) (by omega)
      have h4 : (x.toNat : Int) * y.toNat = (x.toNat * y.toNat : Nat) := by simp
      rw [h4]
      exact (arith_mul _ _ _ _).trans (by rw [h4]; exact ovf_i32 _ (by omega) (by omega))
    · rw [show (x.toNat : Int) * y.toNat = (x.toNat * y.toNat : Nat) by simp, wrap_u8_nat]
      simp
    · refine Eq.trans (congrArg _ ?_) (key_next (env := env) (k := k) (fuel := fuel) (s := s) (objs := cells (mixSteps seed md (i + 1)) :: r) hl (by omega))
      simp only [keySt, mixSteps, hX, hY]
      rw [keyMem_set (i := 0) _ (by simp)]
      rw [show (0 + ((i % 16 : Nat) : Int)).toNat = i % 16 by omega]
      simp only [List.set_cons_zero, List.length_cons, cells_set]

/-- The sizes of what the library computes. -/
structure KeyLib.Sized (k : KeyLib) : Prop where
  random : ∀ r, k.random = some r → r.length = 32
  sha512 : ∀ m, (k.sha512 m).length = 64
  publicKey : ∀ m, (k.publicKey m).length = 32
  privateKey : ∀ m, (k.privateKey m).length = 64

/-- What is in the array `seed` after `ed25519_create_seed`. -/
def KeyLib.start (k : KeyLib) : Bytes := k.random.getD (List.replicate 32 0)

theorem KeyLib.Sized.start {k : KeyLib} (h : k.Sized) : k.start.length = 32 := by
  unfold KeyLib.start
  cases hr : k.random with
  | none => rfl
  | some r => exact h.random r hr

/-- What is printed. -/
def keyText (pub priv : Bytes) : Bytes :=
  str "\n---\nEd25519 Key Generation\n---\n\nPublic Key:\n" ++ hexDump pub ++ str "\n\n---\n\nPrivate Key:   (Ref10-format)\n" ++ hexDump priv ++ str "\n\n---\n"

/-- `main` from line 57 on -/
def keyEnd : Stmt :=
  .seq (.exp (.call "ed25519_create_keypair_ref10" (.cons (.loc 3) (.cons (.loc 4) (.cons (.loc 2) .nil)))))
    (.seq (.exp (.call "printf" (.cons (.str (str "\n---\nEd25519 Key Generation\n---\n\nPublic Key:\n")) .nil)))
      (.seq (.exp (.set 10 (.num 0))) (.seq Ex.Keygen.main.loop3
        (.seq (.exp (.call "printf" (.cons (.str (str "\n\n---\n\nPrivate Key:   (Ref10-format)\n")) .nil)))
          (.seq (.exp (.set 11 (.num 0))) (.seq Ex.Keygen.main.loop4
            (.exp (.call "printf" (.cons (.str (str "\n\n---\n")) .nil)))))))))

/-- The use of the arguments, lines 39 to 54 -/
def keyMix : Stmt :=
  .seq (.declMem 5 64 [] .undef) (.seq (.declMem 6 1 [] .undef) (.seq (.exp (.call "sha512_init" (.cons (.loc 6) .nil)))
    (.seq (.exp (.set 7 (.num 0))) (.seq Ex.Keygen.main.loop1 (.seq (.exp (.call "sha512_final" (.cons (.loc 6) (.cons (.loc 5) .nil))))
      (.seq (.exp (.set 9 (.num 0))) Ex.Keygen.main.loop2))))))

theorem keygen_body : Ex.Keygen.main.body =
    .seq (.declMem 2 32 [.int 0] (.int 0)) (.seq (.exp (.call "ed25519_create_seed" (.cons (.loc 2) .nil)))
      (.seq (.declMem 3 32 [.int 0] (.int 0)) (.seq (.declMem 4 64 [.int 0] (.int 0))
        (.seq (.ite (.cmp .gt (.loc 0) (.num 1)) keyMix .skip) keyEnd)))) := by
  kernel_rfl

theorem key_set {fr : List Val} {i : Nat} {v : Int} {b : Stmt} : exec (kx env k fuel) (.seq (.exp (.set i (.num v))) b) .run s (keySt args fr objs out) =
    exec (kx env k fuel) b .run s (keySt args (fr.set i (.int v)) objs out) := exec_exp (eval_set (eval_num v))

theorem key_lit {fr : List Val} {f : Bytes} (h0 : 0 ∉ f) (hp : 37 ∉ f) : eval (kx env k fuel) (.call "printf" (.cons (.str f) .nil)) s (keySt args fr objs out) =
    .ok (.undef, keySt args fr objs (out ++ f)) := by
  have := formatted_lit (env := env) (s := s) (st := keySt args fr objs out) (r := []) (t := []) (vs := []) hp rfl
  rw [List.append_nil] at this
  exact key_printf h0 rfl this

theorem key_pts {i : Nat} {b : Bytes} {fr : List Val} (h : objs[i]? = some (cells b)) :
    Pts globs (keySt args fr objs out).mem (.ptr (some (.stack i, 0))) (some b) :=
  ⟨_, 0, cells b, rfl, h, by simp, toBytes_cells b⟩

theorem key_write {i : Nat} {w : Bytes} {fr b : List Val} (h : objs[i]? = some b) (hl : (cells w).length = b.length) :
    writeCells (lctx env) (.ptr (some (.stack i, 0))) (cells w) s (keySt args fr objs out) = .ok ((), keySt args fr (objs.set i (cells w)) out) := by
  rw [writeCells_own (b := .stack i) rfl h hl]
  simp only [keySt, keyMem_set (cells w) (List.getElem?_eq_some_iff.mp h).1, List.length_set]

theorem key_end {fr : List Val} {seed p q : Bytes} {r : List (List Val)} (hk : k.Sized) (hl : fr.length = 12) (h2 : fr.getD 2 .undef = .ptr (some (.stack 0, 0)))
    (h3 : fr.getD 3 .undef = .ptr (some (.stack 1, 0))) (h4 : fr.getD 4 .undef = .ptr (some (.stack 2, 0)))
    (hs : seed.length = 32) (hp : p.length = 32) (hq : q.length = 64) (hf : 64 < fuel) :
    exec (kx env k fuel) keyEnd .run s (keySt args fr (cells seed :: cells p :: cells q :: r) []) =
      .ok (.next .run, keySt args ((fr.set 10 (.int 32)).set 11 (.int 64)) (cells seed :: cells (k.publicKey seed) :: cells (k.privateKey seed) :: r)
        (keyText (k.publicKey seed) (k.privateKey seed))) := by
  have e : eval (kx env k fuel) (.call "ed25519_create_keypair_ref10" (.cons (.loc 3) (.cons (.loc 4) (.cons (.loc 2) .nil)))) s
      (keySt args fr (cells seed :: cells p :: cells q :: r) []) =
      .ok (.undef, keySt args fr (cells seed :: cells (k.publicKey seed) :: cells (k.privateKey seed) :: r) []) := by
    refine (eval_call (evalArgs_cons (eval_loc h3) (evalArgs_cons (eval_loc h4) (evalArgs_cons (eval_loc h2) rfl)))).trans ?_
    rw [kx_call]
    have hr : readBytes (lctx env) (.ptr (some (.stack 0, 0))) 32 s (keySt args fr (cells seed :: cells p :: cells q :: r) []) =
        .ok (seed, keySt args fr (cells seed :: cells p :: cells q :: r) []) := by
      have := readBytes_pts (env := env) (s := s) (st := keySt args fr (cells seed :: cells p :: cells q :: r) []) (v := .ptr (some (.stack 0, 0))) (n := 32)
        (key_pts (objs := cells seed :: cells p :: cells q :: r) rfl) (by omega)
      rw [show seed.take 32 = seed by rw [← hs, List.take_length]] at this
      exact this
    have hw := key_write (env := env) (s := s) (args := args) (fr := fr) (out := []) (objs := cells seed :: cells p :: cells q :: r) (i := 1) (b := cells p) (w := k.publicKey seed) rfl
      (by rw [cells_length, cells_length, hk.publicKey, hp])
    have hw' := key_write (env := env) (s := s) (args := args) (fr := fr) (out := []) (objs := cells seed :: cells (k.publicKey seed) :: cells q :: r) (i := 2) (b := cells q)
      (w := k.privateKey seed) rfl (by rw [cells_length, cells_length, hk.privateKey, hq])
    simp only [List.set_cons_succ, List.set_cons_zero] at hw hw'
    simp only [keyCalls, X.bind_apply, hr, hw, hw', X.pure_apply]
  refine (exec_exp e).trans ((exec_exp (key_lit (by decide) (by decide))).trans (key_set.trans ((exec_seq (hex_loop (o := 1) (p := 3) (hk.publicKey seed) (by omega) rfl
    (by omega) h3 (by omega) (by omega))).trans ((exec_exp (key_lit (by decide) (by decide))).trans (key_set.trans ((exec_seq (hex_loop (o := 2) (p := 4) (hk.privateKey seed) (by omega) rfl
    (by omega) (by rw [getD_set_ne _ _ _ _ _ (by omega)]; exact h4) (by simp; omega) (by omega))).trans ((exec_last (key_lit (by decide) (by decide))).trans ?_)))))))
  simp only [keyText, List.nil_append, List.append_assoc]
  rfl

theorem key_mix {fr : List Val} {seed : Bytes} {u v : List Val} (hk : k.Sized) (hl : fr.length = 12) (h0 : fr.getD 0 .undef = .int args.length)
    (h1 : fr.getD 1 .undef = .ptr (some (.ext 1, 0))) (h2 : fr.getD 2 .undef = .ptr (some (.stack 0, 0)))
    (hs : seed.length = 32) (hnul : ∀ a ∈ args, 0 ∉ a) (hn : args.length < 2147483648) (hf : args.length < fuel) (hf' : 64 < fuel) :
    ∃ fr', exec (kx env k fuel) keyMix .run s (keySt args fr [cells seed, u, v] []) =
      .ok (.next .run, keySt args fr' [cells (mixSteps seed (k.sha512 args.flatten) 64), u, v, cells (k.sha512 args.flatten), cells args.flatten] []) ∧
      fr'.length = 12 ∧ ∀ i, i < 5 → fr'.getD i .undef = fr.getD i .undef := by
  unfold keyMix
  have e0 : eval (kx env k fuel) (.call "sha512_init" (.cons (.loc 6) .nil)) s
      (keySt args ((fr.set 5 (.ptr (some (.stack 3, 0)))).set 6 (.ptr (some (.stack 4, 0)))) [cells seed, u, v, List.replicate 64 .undef, [.undef]] []) =
      .ok (.int 0, keySt args ((fr.set 5 (.ptr (some (.stack 3, 0)))).set 6 (.ptr (some (.stack 4, 0)))) [cells seed, u, v, List.replicate 64 .undef, []] []) := by
    refine (eval_call (evalArgs_cons (eval_loc (getD_set_same _ _ _ _ (by simp; omega))) rfl)).trans ?_
    rw [kx_call]
    have hm : (keySt args ((fr.set 5 (.ptr (some (.stack 3, 0)))).set 6 (.ptr (some (.stack 4, 0)))) [cells seed, u, v, List.replicate 64 .undef, [.undef]] []).mem
      (.stack 4) = some [.undef] := rfl
    simp only [keyCalls, X.bind_apply, obj_own (b := .stack 4) rfl hm, setObj_own (b := .stack 4) rfl, X.pure_apply]
    simp only [keySt]
    rw [keyMem_set (i := 4) _ (by simp)]
    rfl
  generalize hF : (fr.set 5 (.ptr (some (.stack 3, 0)))).set 6 (.ptr (some (.stack 4, 0))) = F at e0
  have hFl : F.length = 12 := by subst hF; simpa using hl
  have hlow : ∀ i, i < 5 → F.getD i .undef = fr.getD i .undef := by
    intro i hi
    subst hF
    rw [getD_set_ne _ _ _ _ _ (by omega), getD_set_ne _ _ _ _ _ (by omega)]
  have h5 : F.getD 5 .undef = .ptr (some (.stack 3, 0)) := by
    subst hF
    rw [getD_set_ne _ _ _ _ _ (by omega), getD_set_same _ _ _ _ (by omega)]
  have h6 : F.getD 6 .undef = .ptr (some (.stack 4, 0)) := by
    subst hF
    rw [getD_set_same _ _ _ _ (by simp; omega)]
  obtain ⟨w, el⟩ := args_loop (env := env) (k := k) (fuel := fuel) (s := s) (args := args) (out := []) (fr := F) (o := 4)
    (objs := [cells seed, u, v, List.replicate 64 .undef, []]) (by rw [hlow 0 (by omega), h0]) (by rw [hlow 1 (by omega), h1]) h6 (by omega) (by simp) hnul hn hf
  simp only [List.set_cons_succ, List.set_cons_zero] at el
  generalize hG : (F.set 8 w).set 7 (.int args.length) = G at el
  have hGl : G.length = 12 := by subst hG; simpa using hFl
  have hG' : ∀ i, i < 7 → G.getD i .undef = F.getD i .undef := by
    intro i hi
    subst hG
    rw [getD_set_ne _ _ _ _ _ (by omega), getD_set_ne _ _ _ _ _ (by omega)]
  have ef : eval (kx env k fuel) (.call "sha512_final" (.cons (.loc 6) (.cons (.loc 5) .nil))) s
      (keySt args G [cells seed, u, v, List.replicate 64 .undef, cells args.flatten] []) =
      .ok (.int 0, keySt args G [cells seed, u, v, cells (k.sha512 args.flatten), cells args.flatten] []) := by
    refine (eval_call (evalArgs_cons (eval_loc ((hG' 6 (by omega)).trans h6)) (evalArgs_cons (eval_loc ((hG' 5 (by omega)).trans h5)) rfl))).trans ?_
    rw [kx_call]
    have hm : (keySt args G [cells seed, u, v, List.replicate 64 .undef, cells args.flatten] []).mem (.stack 4) = some (cells args.flatten) := rfl
    have hw := key_write (env := env) (s := s) (args := args) (fr := G) (out := []) (objs := [cells seed, u, v, List.replicate 64 .undef, cells args.flatten]) (i := 3)
      (b := List.replicate 64 .undef) (w := k.sha512 args.flatten) rfl (by rw [cells_length, hk.sha512]; simp)
    simp only [List.set_cons_succ, List.set_cons_zero] at hw
    simp only [keyCalls, X.bind_apply, obj_own (b := .stack 4) rfl hm, toBytes_cells, hw, X.pure_apply]
  refine ⟨G.set 9 (.int 64), ?_, by simpa using hGl, ?_⟩
  · rw [key_decl, key_decl]
    simp only [List.length_cons, List.length_nil, List.nil_append, List.cons_append, Nat.sub_zero]
    rw [hF]
    refine (exec_exp e0).trans (key_set.trans ((exec_seq el).trans ((exec_exp ef).trans (key_set.trans ?_))))
    exact mix_loop (by rw [hG' 2 (by omega), hlow 2 (by omega), h2]) (by rw [hG' 5 (by omega), h5]) (by omega) hs (hk.sha512 _) rfl hf'
  · intro i hi
    rw [getD_set_ne _ _ _ _ _ (by omega), hG' i (by omega), hlow i hi]

theorem keygen_run (hk : k.Sized) (hnul : ∀ a ∈ args, 0 ∉ a) (hn : args.length < 2147483648) (hf : args.length < fuel) (hf' : 64 < fuel) :
    ∃ st, runKeygen env k fuel args s = .ok (.undef, st) ∧
      st.printed = some (
        let seed := if args.length ≤ 1 then k.start else mixSteps k.start (k.sha512 args.flatten) 64
        keyText (k.publicKey seed) (k.privateKey seed)) := by
  have hz : ∀ n, 0 < n → [Val.int 0] ++ List.replicate (n - [Val.int 0].length) (.int 0) = cells (List.replicate n 0) := by
    intro n hn
    obtain ⟨m, rfl⟩ : ∃ m, n = m + 1 := ⟨n - 1, by omega⟩
    simp [cells, List.replicate_succ]
  have h32 := hz 32 (by omega)
  have h64 := hz 64 (by omega)
  have e0 : eval (kx env k fuel) (.call "ed25519_create_seed" (.cons (.loc 2) .nil)) s
      (keySt args [.int args.length, .ptr (some (.ext 1, 0)), .ptr (some (.stack 0, 0)), .undef, .undef, .undef, .undef, .undef, .undef, .undef, .undef, .undef]
        [cells (List.replicate 32 0)] []) =
      .ok (.int (if k.random.isSome then 0 else 1),
        keySt args [.int args.length, .ptr (some (.ext 1, 0)), .ptr (some (.stack 0, 0)), .undef, .undef, .undef, .undef, .undef, .undef, .undef, .undef, .undef] [cells k.start] []) := by
    refine (eval_call (evalArgs_cons (eval_loc (v := .ptr (some (.stack 0, 0))) rfl) rfl)).trans ?_
    rw [kx_call]
    cases hr : k.random with
    | none => simp only [keyCalls, hr, KeyLib.start]; rfl
    | some r =>
      have hw := key_write (env := env) (s := s) (args := args) (out := []) (objs := [cells (List.replicate 32 0)]) (i := 0)
        (fr := [.int args.length, .ptr (some (.ext 1, 0)), .ptr (some (.stack 0, 0)), .undef, .undef, .undef, .undef, .undef, .undef, .undef, .undef, .undef])
        (b := cells (List.replicate 32 0)) (w := r) rfl (by rw [cells_length, cells_length, hk.random r hr]; rfl)
      simp only [List.set_cons_zero] at hw
      simp only [keyCalls, hr, X.bind_apply, KeyLib.start, hw]
      rfl
  have hpre : exec (kx env k fuel) Ex.Keygen.main.body .run s
      (keySt args [.int args.length, .ptr (some (.ext 1, 0)), .undef, .undef, .undef, .undef, .undef, .undef, .undef, .undef, .undef, .undef] [] []) =
      exec (kx env k fuel) (.seq (.ite (.cmp .gt (.loc 0) (.num 1)) keyMix .skip) keyEnd) .run s
        (keySt args [.int args.length, .ptr (some (.ext 1, 0)), .ptr (some (.stack 0, 0)), .ptr (some (.stack 1, 0)), .ptr (some (.stack 2, 0)), .undef, .undef, .undef, .undef,
          .undef, .undef, .undef] [cells k.start, cells (List.replicate 32 0), cells (List.replicate 64 0)] []) := by
    rw [keygen_body, key_decl, h32]
    refine (exec_exp e0).trans ?_
    rw [key_decl, key_decl, h32, h64]
    rfl
  generalize hF : [Val.int args.length, .ptr (some (.ext 1, 0)), .ptr (some (.stack 0, 0)), .ptr (some (.stack 1, 0)), .ptr (some (.stack 2, 0)), .undef, .undef, .undef, .undef,
          .undef, .undef, .undef] = F at hpre
  have hgt : eval (kx env k fuel) (.cmp .gt (.loc 0) (.num 1)) s (keySt args F [cells k.start, cells (List.replicate 32 0), cells (List.replicate 64 0)] []) =
      .ok (.ofBool (decide (¬ args.length ≤ 1)), keySt args F [cells k.start, cells (List.replicate 32 0), cells (List.replicate 64 0)] []) := by
    subst hF
    show Except.ok (Val.ofBool (decide ((args.length : Int) > 1)), _) = _
    congr 3
    simp
    omega
  have fin : ∃ st, exec (kx env k fuel) Ex.Keygen.main.body .run s
      (keySt args [.int args.length, .ptr (some (.ext 1, 0)), .undef, .undef, .undef, .undef, .undef, .undef, .undef, .undef, .undef, .undef] [] []) = .ok (.next .run, st) ∧
      st.mem (.ext 0) = some (cells (
        let seed := if args.length ≤ 1 then k.start else mixSteps k.start (k.sha512 args.flatten) 64
        keyText (k.publicKey seed) (k.privateKey seed))) := by
    rw [hpre]
    by_cases h1 : args.length ≤ 1
    · simp only [if_pos h1]
      refine ⟨_, (exec_seq (st' := keySt args F [cells k.start, cells (List.replicate 32 0), cells (List.replicate 64 0)] []) ?_).trans
        (key_end hk (by subst hF; rfl) (by subst hF; rfl) (by subst hF; rfl) (by subst hF; rfl) hk.start (by simp) (by simp) hf'), rfl⟩
      simp only [exec, X.bind_apply, hgt, truth_ofBool, X.lift_ok]
      rw [if_neg (by simpa using h1)]
      rfl
    · simp only [if_neg h1]
      obtain ⟨fr', e, hl, hlow⟩ := key_mix (env := env) (k := k) (fuel := fuel) (s := s) (args := args) (fr := F) (u := cells (List.replicate 32 0)) (v := cells (List.replicate 64 0)) hk
        (by subst hF; rfl) (by subst hF; rfl) (by subst hF; rfl) (by subst hF; rfl) hk.start hnul hn hf hf'
      have e' : exec (kx env k fuel) (.ite (.cmp .gt (.loc 0) (.num 1)) keyMix .skip) .run s
          (keySt args F [cells k.start, cells (List.replicate 32 0), cells (List.replicate 64 0)] []) = .ok (.next .run, keySt args fr' [cells (mixSteps k.start (k.sha512 args.flatten) 64),
            cells (List.replicate 32 0), cells (List.replicate 64 0), cells (k.sha512 args.flatten), cells args.flatten] []) := by
        simp only [exec, X.bind_apply, hgt, truth_ofBool, X.lift_ok]
        rw [if_pos (by simpa using h1)]
        exact e
      exact ⟨_, (exec_seq e').trans (key_end hk hl (by rw [hlow 2 (by omega)]; subst hF; rfl) (by rw [hlow 3 (by omega)]; subst hF; rfl)
        (by rw [hlow 4 (by omega)]; subst hF; rfl) (by rw [mixSteps_length, hk.start]) (List.length_replicate ..) (List.length_replicate ..) hf'), rfl⟩
  obtain ⟨st, e, hm⟩ := fin
  refine ⟨{ st with fr := [], mem := dropStack 0 st.mem, stk := 0 }, ?_, ?_⟩
  · simp only [runKeygen, runFun]
    rw [show ({ keySt args [] [] [] with fr := [.int args.length, .ptr (some (.ext 1, 0))] ++ List.replicate (Ex.Keygen.main.slots - Ex.Keygen.main.params) .undef } : St) =
      keySt args [.int args.length, .ptr (some (.ext 1, 0)), .undef, .undef, .undef, .undef, .undef, .undef, .undef, .undef, .undef, .undef] [] [] from rfl, e]
    rfl
  · show Option.map toBytes (st.mem (.ext 0)) = _
    rw [hm]
    exact congrArg some (toBytes_cells _)

end L8w8jwt.C
