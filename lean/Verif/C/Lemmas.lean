import Verif.C.Ext
import Verif.C.Unit
/-!
# Executing C text symbolically
-/

namespace L8w8jwt.C

theorem X.bind_apply {α β : Type} (m : X α) (f : α → X β) (s : Sched) (st : St) :
    (m >>= f) s st = match m s st with | .error e => .error e | .ok (a, st') => f a s st' := rfl

theorem X.pure_apply {α : Type} (a : α) (s : Sched) (st : St) : (pure a : X α) s st = .ok (a, st) := rfl

theorem X.fail_apply {α : Type} (e : Err) (s : Sched) (st : St) : (X.fail e : X α) s st = .error e := rfl

theorem X.lift_ok {α : Type} (a : α) (s : Sched) (st : St) : X.lift (.ok a : Except Err α) s st = .ok (a, st) := rfl

theorem X.lift_error {α : Type} (e : Err) (s : Sched) (st : St) : X.lift (.error e : Except Err α) s st = .error e := rfl

theorem X.res_ok {α : Type} (a : α) (s : Sched) (st : St) : X.res (.ok a : Res α) s st = .ok (a, st) := rfl

theorem X.res_error {α : Type} (e : UB) (s : Sched) (st : St) :
    X.res (.error e : Res α) s st = .error (.ub e) := rfl

theorem X.ite_apply {α : Type} (p : Prop) [Decidable p] (a b : X α) (s : Sched) (st : St) :
    (if p then a else b) s st = if p then a s st else b s st := by split <;> rfl

theorem getLoc_apply (i : Nat) (s : Sched) (st : St) : getLoc i s st = .ok (st.fr.getD i .undef, st) := rfl

theorem setLoc_apply (i : Nat) (v : Val) (s : Sched) (st : St) :
    setLoc i v s st = .ok ((), { st with fr := st.fr.set i v }) := rfl

/-- Objects in memory (as opposed to literals and tables). -/
def Blk.own : Blk → Bool
  | .lit _ => false
  | .glob _ => false
  | _ => true

/-- The content of an object: a literal, a table, or from memory. -/
def cont (glob : String → Option (List Val)) (mem : Blk → Option (List Val)) : Blk → Option (List Val)
  | .lit t => some (t.map (fun x => Val.int x.toNat) ++ [.int 0])
  | .glob g => glob g
  | .heap i => mem (.heap i)
  | .stack i => mem (.stack i)
  | .ext i => mem (.ext i)

theorem cont_own {g : String → Option (List Val)} {mem : Blk → Option (List Val)} {b : Blk} (hb : b.own = true) :
    cont g mem b = mem b := by
  cases b <;> simp_all [cont, Blk.own]

theorem cont_lit {g : String → Option (List Val)} {mem : Blk → Option (List Val)} (t : List UInt8) :
    cont g mem (.lit t) = some (cells (t ++ [0])) := by
  simp [cont, cells]

theorem obj_cont {c : Ctx} {b : Blk} {s : Sched} {st : St} {l : List Val} (h : cont c.glob st.mem b = some l) :
    obj c b s st = .ok (l, st) := by
  cases b <;> simp_all [obj, cont]

theorem obj_own {c : Ctx} {b : Blk} (hb : b.own = true) {s : Sched} {st : St} {l : List Val} (h : st.mem b = some l) :
    obj c b s st = .ok (l, st) :=
  obj_cont (by rw [cont_own hb]; exact h)

theorem setObj_own {b : Blk} (hb : b.own = true) {s : Sched} {st : St} {l : List Val} :
    setObj b l s st = .ok ((), { st with mem := upd st.mem b (some l) }) := by
  cases b <;> simp_all [setObj, Blk.own]

theorem upd_same (m : Blk → Option (List Val)) (b : Blk) (l : Option (List Val)) : upd m b l b = l := by simp [upd]

theorem upd_ne (m : Blk → Option (List Val)) {b b' : Blk} (l : Option (List Val)) (h : b' ≠ b) : upd m b l b' = m b' := by
  simp [upd, h]

theorem upd_upd (m : Blk → Option (List Val)) (b : Blk) (l l' : Option (List Val)) : upd (upd m b l) b l' = upd m b l' := by
  funext x
  simp only [upd]
  split <;> rfl

theorem loadV_cont {c : Ctx} {t : STy} {b : Blk} {o : Int} {s : Sched} {st : St} {l : List Val}
    (h : cont c.glob st.mem b = some l) (ho : 0 ≤ o) {v w : Val} (hv : l[o.toNat]? = some v) (hw : asTy c.cs t v = .ok w) :
    loadV c t (.ptr (some (b, o))) s st = .ok (w, st) := by
  have : ¬ o < 0 := by omega
  simp [loadV, X.bind_apply, obj_cont h, this, hv, hw, X.lift_ok]

theorem loadV_oob {c : Ctx} {t : STy} {b : Blk} {o : Int} {s : Sched} {st : St} {l : List Val}
    (h : cont c.glob st.mem b = some l) (hv : l[o.toNat]? = none) :
    loadV c t (.ptr (some (b, o))) s st = .error (.ub .oobRead) := by
  simp [loadV, X.bind_apply, obj_cont h, hv, X.fail_apply]

theorem storeV_own {c : Ctx} {t : STy} {b : Blk} {o : Int} (hb : b.own = true) {s : Sched} {st : St} {l : List Val}
    (h : st.mem b = some l) (ho : 0 ≤ o) (hl : o.toNat < l.length) {v w : Val} (hw : toCell t v = .ok w) :
    storeV c t (.ptr (some (b, o))) v s st = .ok ((), { st with mem := upd st.mem b (some (l.set o.toNat w)) }) := by
  simp only [storeV, X.bind_apply, obj_own hb h, hw, X.lift_ok]
  rw [if_pos ⟨ho, hl⟩, setObj_own hb]

theorem paddV_cont {c : Ctx} {b : Blk} {o d : Int} {s : Sched} {st : St} {l : List Val}
    (h : cont c.glob st.mem b = some l) (ho : 0 ≤ o + d) (hl : o + d ≤ l.length) :
    paddV c (.ptr (some (b, o))) d s st = .ok (.ptr (some (b, o + d)), st) := by
  simp [paddV, X.bind_apply, obj_cont h, ho, hl, X.pure_apply]

theorem wrap_char (cs : Bool) (b : UInt8) : wrap cs .char (b.toNat : Int) = charVal cs b := by
  have := b.toNat_lt
  have h1 : (b.toNat : Int) % 256 = b.toNat := Int.emod_eq_of_lt (by omega) (by omega)
  cases cs
  · simp [wrap, ITy.signed, ITy.modulus, charVal, h1]
  · simp only [wrap, ITy.signed, ITy.modulus, charVal, h1, ↓reduceIte]
    by_cases h : 128 ≤ b.toNat
    · rw [if_pos (by omega), if_pos (by simp [h])]
    · rw [if_neg (by omega), if_neg (by simp [h])]

theorem wrap_u8 (cs : Bool) (b : UInt8) : wrap cs .u8 (b.toNat : Int) = b.toNat := by
  have := b.toNat_lt
  have h1 : (b.toNat : Int) % 256 = b.toNat := Int.emod_eq_of_lt (by omega) (by omega)
  simp [wrap, ITy.signed, ITy.modulus, h1]

theorem wrap_u64 (cs : Bool) (n : Nat) (h : n < 18446744073709551616) : wrap cs .u64 (n : Int) = n := by
  have h1 : (n : Int) % 18446744073709551616 = n := Int.emod_eq_of_lt (by omega) (by omega)
  simp [wrap, ITy.signed, ITy.modulus, h1]

theorem wrapr_u64 (cs : Bool) {v : Int} (h0 : 0 ≤ v) (h : v < 18446744073709551616) : wrap cs .u64 v = v := by
  have h1 : v % 18446744073709551616 = v := Int.emod_eq_of_lt h0 h
  simp [wrap, ITy.signed, ITy.modulus, h1]

theorem wrapr_u8 (cs : Bool) {v : Int} (h0 : 0 ≤ v) (h : v < 256) : wrap cs .u8 v = v := by
  have h1 : v % 256 = v := Int.emod_eq_of_lt h0 h
  simp [wrap, ITy.signed, ITy.modulus, h1]

theorem wrapr_i32 (cs : Bool) {v : Int} (h0 : -2147483648 ≤ v) (h : v < 2147483648) : wrap cs .i32 v = v := by
  have hm : ITy.i32.modulus = 4294967296 := rfl
  unfold wrap
  rw [if_pos (show ITy.signed cs .i32 = true from rfl)]
  by_cases hc : ITy.i32.modulus / 2 ≤ v % ITy.i32.modulus
  · rw [if_pos hc]; rw [hm] at *; omega
  · rw [if_neg hc]; rw [hm] at *; omega

theorem wrapr_i64 (cs : Bool) {v : Int} (h0 : -9223372036854775808 ≤ v) (h : v < 9223372036854775808) : wrap cs .i64 v = v := by
  have hm : ITy.i64.modulus = 18446744073709551616 := rfl
  unfold wrap
  rw [if_pos (show ITy.signed cs .i64 = true from rfl)]
  by_cases hc : ITy.i64.modulus / 2 ≤ v % ITy.i64.modulus
  · rw [if_pos hc]; rw [hm] at *; omega
  · rw [if_neg hc]; rw [hm] at *; omega

theorem ovf_u64 (cs : Bool) {v : Int} (h0 : 0 ≤ v) (h : v < 18446744073709551616) : ovf cs .u64 v = .ok v := by
  have h1 : v % 18446744073709551616 = v := Int.emod_eq_of_lt h0 h
  simp [ovf, ITy.signed, ITy.modulus, h1]

theorem ovf_mod (cs : Bool) (v : Int) : ovf cs .u64 v = .ok (v % 18446744073709551616) := by
  simp [ovf, ITy.signed, ITy.modulus]

theorem ovf_u8 (cs : Bool) {v : Int} (h0 : 0 ≤ v) (h : v < 256) : ovf cs .u8 v = .ok v := by
  have h1 : v % 256 = v := Int.emod_eq_of_lt h0 h
  simp [ovf, ITy.signed, ITy.modulus, h1]

theorem ovf_i32 (cs : Bool) {v : Int} (h0 : -2147483648 ≤ v) (h : v < 2147483648) : ovf cs .i32 v = .ok v := by
  have hm : ITy.i32.modulus = 4294967296 := rfl
  unfold ovf
  rw [if_pos (show ITy.signed cs .i32 = true from rfl), if_pos (by rw [hm]; omega)]

theorem ovf_i64 (cs : Bool) {v : Int} (h0 : -9223372036854775808 ≤ v) (h : v < 9223372036854775808) : ovf cs .i64 v = .ok v := by
  have hm : ITy.i64.modulus = 18446744073709551616 := rfl
  unfold ovf
  rw [if_pos (show ITy.signed cs .i64 = true from rfl), if_pos (by rw [hm]; omega)]

section arith
variable (cs : Bool) (t : ITy) {a b : Int}
theorem arith_add (a b : Int) : arith cs .add t a b = ovf cs t (a + b) := rfl
theorem arith_sub (a b : Int) : arith cs .sub t a b = ovf cs t (a - b) := rfl
theorem arith_mul (a b : Int) : arith cs .mul t a b = ovf cs t (a * b) := rfl
theorem arith_div (h0 : 0 ≤ a) (h : 0 < b) : arith cs .div t a b = ovf cs t (a / b) := by
  simp only [arith]
  rw [if_neg (by omega), Int.tdiv_eq_ediv_of_nonneg h0]
theorem arith_mod (h0 : 0 ≤ a) (h : 0 < b) : arith cs .mod t a b = ovf cs t (a % b) := by
  simp only [arith]
  rw [if_neg (by omega), Int.tmod_eq_emod_of_nonneg h0]
theorem arith_tmod (a : Int) (h : 0 < b) : arith cs .mod t a b = ovf cs t (Int.tmod a b) := by
  simp only [arith]
  rw [if_neg (by omega)]
theorem two_pow_lt {b : Int} (h : b < 32) : (2 : Int) ^ b.toNat < 4294967296 := by
  have h1 : (2 : Nat) ^ b.toNat < 2 ^ 32 := Nat.pow_lt_pow_right (by omega) (by omega)
  have h2 : ((2 ^ b.toNat : Nat) : Int) < ((2 ^ 32 : Nat) : Int) := by exact_mod_cast h1
  simpa using h2

theorem arith_shr (h0 : 0 ≤ a) (hb : 0 ≤ b) (h : b < 32) :
    arith cs .shr .i32 a b = .ok ((a.toNat >>> b.toNat : Nat) : Int) := by
  unfold arith
  exact if_pos ⟨h0, hb, two_pow_lt h⟩
theorem arith_shl (h0 : 0 ≤ a) (hb : 0 ≤ b) (h : b < 32) :
    arith cs .shl .i32 a b = ovf cs .i32 ((a.toNat <<< b.toNat : Nat) : Int) := by
  unfold arith
  exact if_pos ⟨h0, hb, two_pow_lt h⟩
theorem arith_band (h0 : 0 ≤ a) (hb : 0 ≤ b) : arith cs .band t a b = .ok ((a.toNat &&& b.toNat : Nat) : Int) := by
  unfold arith
  exact if_pos ⟨h0, hb⟩
theorem arith_bor (h0 : 0 ≤ a) (hb : 0 ≤ b) : arith cs .bor t a b = .ok ((a.toNat ||| b.toNat : Nat) : Int) := by
  unfold arith
  exact if_pos ⟨h0, hb⟩
end arith

theorem cells_length (b : Bytes) : (cells b).length = b.length := by simp [cells]

theorem cells_get (b : Bytes) (i : Nat) : (cells b)[i]? = b[i]?.map fun x => Val.int x.toNat := by simp [cells]

/-! ## Weakest preconditions -/

/-- The computation ends normally, in a state where `Q` holds. -/
def WP {α : Type} (m : X α) (s : Sched) (st : St) (Q : α → St → Prop) : Prop :=
  ∃ a st', m s st = .ok (a, st') ∧ Q a st'

/-- The result is a value with property `Q`. -/
def Lift {α : Type} (r : Except Err α) (Q : α → Prop) : Prop := ∃ a, r = .ok a ∧ Q a

/-- Case distinction (not unfolded before the condition is known). -/
def WIf (p : Prop) (A B : Prop) : Prop := (p → A) ∧ (¬ p → B)

theorem WP_congr {α : Type} {m m' : X α} {s : Sched} {st st' : St} {Q : α → St → Prop} (hm : m = m') (h : st = st') :
    WP m s st Q = WP m' s st' Q := by rw [hm, h]

theorem Lift_congr {α : Type} {r r' : Except Err α} {Q : α → Prop} (h : r = r') : Lift r Q = Lift r' Q := by rw [h]

theorem WIf_congr {p p' A B : Prop} (h : p = p') : WIf p A B = WIf p' A B := by rw [h]

theorem WIf_true (A B : Prop) : WIf True A B = A := by simp [WIf]
theorem WIf_false (A B : Prop) : WIf False A B = B := by simp [WIf]

theorem Lift_ok {α : Type} (a : α) (Q : α → Prop) : Lift (.ok a) Q = Q a := by simp [Lift]

theorem WP_mono {α : Type} {m : X α} {s : Sched} {st : St} {Q R : α → St → Prop} (h : WP m s st Q)
    (hq : ∀ a st', Q a st' → R a st') : WP m s st R := by
  obtain ⟨a, st', h1, h2⟩ := h
  exact ⟨a, st', h1, hq _ _ h2⟩

/-- A computation with a known result. -/
theorem wp_merge {α : Type} {m : X α} {s : Sched} {st : St} {Q : α → St → Prop} (a : α) (st1 : St)
    (h : WP m s st fun x st' => x = a ∧ st' = st1) (hq : Q a st1) : WP m s st Q :=
  WP_mono h (by rintro _ _ ⟨rfl, rfl⟩; exact hq)

/-- A computation with a known result that does not change the state. -/
theorem wp_merge_same {α : Type} {m : X α} {s : Sched} {st : St} {Q : α → St → Prop} (a : α)
    (h : WP m s st fun x st' => x = a ∧ st' = st) (hq : Q a st) : WP m s st Q :=
  wp_merge a st h hq

theorem wp_of_eq {α : Type} {m : X α} {s : Sched} {st st' : St} {Q : α → St → Prop} {a : α} (h : m s st = .ok (a, st')) :
    WP m s st Q = Q a st' := by
  apply propext
  constructor
  · rintro ⟨a', st'', h1, h2⟩
    rw [h] at h1
    cases h1
    exact h2
  · intro h2
    exact ⟨_, _, h, h2⟩

theorem wp_bind {α β : Type} (m : X α) (f : α → X β) (s : Sched) (st : St) (Q : β → St → Prop) :
    WP (m >>= f) s st Q = WP m s st (fun a st' => WP (f a) s st' Q) := by
  apply propext
  cases h : m s st with
  | error e => simp [WP, X.bind_apply, h]
  | ok r =>
    obtain ⟨a, st'⟩ := r
    rw [wp_of_eq h]
    unfold WP
    rw [X.bind_apply, h]

theorem wp_pure {α : Type} (a : α) (s : Sched) (st : St) (Q : α → St → Prop) : WP (pure a) s st Q = Q a st :=
  wp_of_eq rfl

theorem wp_lift {α : Type} (r : Except Err α) (s : Sched) (st : St) (Q : α → St → Prop) :
    WP (X.lift r) s st Q = Lift r (fun a => Q a st) := by
  apply propext
  cases r with
  | error e => simp [WP, Lift, X.lift]
  | ok a => rw [wp_of_eq (X.lift_ok a s st), Lift_ok]

theorem wp_ite {α : Type} (p : Prop) [Decidable p] (a b : X α) (s : Sched) (st : St) (Q : α → St → Prop) :
    WP (if p then a else b) s st Q = WIf p (WP a s st Q) (WP b s st Q) := by
  by_cases h : p <;> simp [h, WIf]

section rules
variable (c : Ctx) (s : Sched) (st : St)

theorem wp_num (v : Int) (Q : Val → St → Prop) : WP (eval c (.num v)) s st Q = Q (.int v) st := by
  simp only [eval, wp_pure]
theorem wp_null (Q : Val → St → Prop) : WP (eval c .null) s st Q = Q (.ptr none) st := by
  simp only [eval, wp_pure]
theorem wp_str (t : List UInt8) (Q : Val → St → Prop) :
    WP (eval c (.str t)) s st Q = Q (.ptr (some (.lit t, 0))) st := by
  simp only [eval, wp_pure]
theorem wp_glob (g : String) (Q : Val → St → Prop) :
    WP (eval c (.glob g)) s st Q = Q (.ptr (some (.glob g, 0))) st := by
  simp only [eval, wp_pure]
theorem wp_loc (i : Nat) (Q : Val → St → Prop) : WP (eval c (.loc i)) s st Q = Q (st.fr.getD i .undef) st := by
  simp only [eval]
  exact wp_of_eq rfl
theorem wp_cast (t : ITy) (e : Expr) (Q : Val → St → Prop) :
    WP (eval c (.cast t e)) s st Q =
      WP (eval c e) s st fun v st1 => Lift v.getInt fun n => Q (.int (wrap c.cs t n)) st1 := by
  simp only [eval, wp_bind, wp_lift, wp_pure]
theorem wp_ar (op : AOp) (t : ITy) (a b : Expr) (Q : Val → St → Prop) :
    WP (eval c (.ar op t a b)) s st Q =
      WP (eval c a) s st fun x st1 => WP (eval c b) s st1 fun y st2 =>
        Lift x.getInt fun m => Lift y.getInt fun n => Lift (arith c.cs op t m n) fun r => Q (.int r) st2 := by
  simp only [eval, wp_bind, wp_lift, wp_pure]
theorem wp_cmp (op : COp) (a b : Expr) (Q : Val → St → Prop) :
    WP (eval c (.cmp op a b)) s st Q =
      WP (eval c a) s st fun x st1 => WP (eval c b) s st1 fun y st2 => Lift (compareV op x y) fun r => Q r st2 := by
  simp only [eval, wp_bind, wp_lift]
theorem wp_not (a : Expr) (Q : Val → St → Prop) :
    WP (eval c (.not a)) s st Q = WP (eval c a) s st fun x st1 => Lift x.truth fun p => Q (.ofBool !p) st1 := by
  simp only [eval, wp_bind, wp_lift, wp_pure]
theorem wp_land (a b : Expr) (Q : Val → St → Prop) :
    WP (eval c (.land a b)) s st Q =
      WP (eval c a) s st fun x st1 => Lift x.truth fun p =>
        WIf (p = true) (WP (eval c b) s st1 fun y st2 => Lift y.truth fun q => Q (.ofBool q) st2) (Q (.ofBool false) st1) := by
  simp only [eval, wp_bind, wp_lift, wp_pure, wp_ite]
theorem wp_lor (a b : Expr) (Q : Val → St → Prop) :
    WP (eval c (.lor a b)) s st Q =
      WP (eval c a) s st fun x st1 => Lift x.truth fun p =>
        WIf (p = true) (Q (.ofBool true) st1) (WP (eval c b) s st1 fun y st2 => Lift y.truth fun q => Q (.ofBool q) st2) := by
  simp only [eval, wp_bind, wp_lift, wp_pure, wp_ite]
theorem wp_cond (e a b : Expr) (Q : Val → St → Prop) :
    WP (eval c (.cond e a b)) s st Q =
      WP (eval c e) s st fun x st1 => Lift x.truth fun p =>
        WIf (p = true) (WP (eval c a) s st1 Q) (WP (eval c b) s st1 Q) := by
  simp only [eval, wp_bind, wp_lift, wp_ite]
theorem wp_comma (a b : Expr) (Q : Val → St → Prop) :
    WP (eval c (.comma a b)) s st Q = WP (eval c a) s st fun _ st1 => WP (eval c b) s st1 Q := by
  simp only [eval, wp_bind]
theorem wp_padd (k : Int) (p i : Expr) (Q : Val → St → Prop) :
    WP (eval c (.padd k p i)) s st Q =
      WP (eval c p) s st fun x st1 => WP (eval c i) s st1 fun y st2 => Lift y.getInt fun n => WP (paddV c x (k * n)) s st2 Q := by
  simp only [eval, wp_bind, wp_lift]
theorem wp_pdiff (k : Int) (a b : Expr) (Q : Val → St → Prop) :
    WP (eval c (.pdiff k a b)) s st Q =
      WP (eval c a) s st fun x st1 => WP (eval c b) s st1 fun y st2 => Lift (pdiffV k x y) fun r => Q r st2 := by
  simp only [eval, wp_bind, wp_lift]
theorem wp_load (t : STy) (p : Expr) (Q : Val → St → Prop) :
    WP (eval c (.load t p)) s st Q = WP (eval c p) s st fun x st1 => WP (loadV c t x) s st1 Q := by
  simp only [eval, wp_bind]
theorem wp_store (t : STy) (p e : Expr) (Q : Val → St → Prop) :
    WP (eval c (.store t p e)) s st Q =
      WP (eval c p) s st fun x st1 => WP (eval c e) s st1 fun v st2 => WP (storeV c t x v) s st2 fun _ st3 => Q v st3 := by
  simp only [eval, wp_bind, wp_pure]
theorem wp_set (i : Nat) (e : Expr) (Q : Val → St → Prop) :
    WP (eval c (.set i e)) s st Q = WP (eval c e) s st fun v st1 => Q v { st1 with fr := st1.fr.set i v } := by
  simp only [eval, wp_bind, wp_pure]
  congr 1
  funext v st1
  exact wp_of_eq rfl
theorem wp_post (i : Nat) (e : Expr) (Q : Val → St → Prop) :
    WP (eval c (.post i e)) s st Q =
      WP (eval c e) s st fun v st1 => Q (st.fr.getD i .undef) { st1 with fr := st1.fr.set i v } := by
  simp only [eval, wp_bind, wp_pure]
  rw [wp_of_eq (m := getLoc i) rfl]
  congr 1
  funext v st1
  exact wp_of_eq rfl
theorem wp_copy (n : Nat) (p q : Expr) (Q : Val → St → Prop) :
    WP (eval c (.copy n p q)) s st Q =
      WP (eval c p) s st fun x st1 => WP (eval c q) s st1 fun y st2 => WP (readCells c y n) s st2 fun l st3 =>
        WP (writeCells c x l) s st3 fun _ st4 => Q .undef st4 := by
  simp only [eval, wp_bind, wp_pure]
theorem wp_call (f : String) (as : Args) (Q : Val → St → Prop) :
    WP (eval c (.call f as)) s st Q = WP (evalArgs c as) s st fun vs st1 => WP (c.call f vs) s st1 Q := by
  simp only [eval, wp_bind]
theorem wp_args_nil (Q : List Val → St → Prop) : WP (evalArgs c .nil) s st Q = Q [] st := by
  simp only [evalArgs, wp_pure]
theorem wp_args_cons (e : Expr) (r : Args) (Q : List Val → St → Prop) :
    WP (evalArgs c (.cons e r)) s st Q =
      WP (eval c e) s st fun v st1 => WP (evalArgs c r) s st1 fun vs st2 => Q (v :: vs) st2 := by
  simp only [evalArgs, wp_bind, wp_pure]

/-- The rest of a sequence after a statement. -/
def Then (c : Ctx) (b : Stmt) (s : Sched) (Q : Ctl → St → Prop) : Ctl → St → Prop
  | .next m, st => WP (exec c b m) s st Q
  | r, st => Q r st

theorem Then_congr {c : Ctx} {b : Stmt} {s : Sched} {Q : Ctl → St → Prop} {r r' : Ctl} {st st' : St} (h : r = r')
    (hs : st = st') : Then c b s Q r st = Then c b s Q r' st' := by rw [h, hs]

theorem then_next (b : Stmt) (Q : Ctl → St → Prop) (m : Mode) : Then c b s Q (.next m) st = WP (exec c b m) s st Q := rfl
theorem then_brk (b : Stmt) (Q : Ctl → St → Prop) : Then c b s Q .brk st = Q .brk st := rfl
theorem then_cont (b : Stmt) (Q : Ctl → St → Prop) : Then c b s Q .cont st = Q .cont st := rfl
theorem then_ret (b : Stmt) (Q : Ctl → St → Prop) (v : Val) : Then c b s Q (.ret v) st = Q (.ret v) st := rfl

theorem wp_seq (a b : Stmt) (m : Mode) (Q : Ctl → St → Prop) :
    WP (exec c (.seq a b) m) s st Q = WP (exec c a m) s st (Then c b s Q) := by
  simp only [exec, wp_bind]
  congr 1
  funext r st1
  cases r <;> simp only [Then, wp_pure]

theorem wp_skip (m : Mode) (Q : Ctl → St → Prop) : WP (exec c .skip m) s st Q = Q (.next m) st := by
  simp only [exec, wp_pure]
theorem wp_exp (e : Expr) (Q : Ctl → St → Prop) :
    WP (exec c (.exp e) .run) s st Q = WP (eval c e) s st fun _ st1 => Q (.next .run) st1 := by
  simp only [exec, wp_bind, wp_pure]
theorem wp_if (e : Expr) (a b : Stmt) (Q : Ctl → St → Prop) :
    WP (exec c (.ite e a b) .run) s st Q =
      WP (eval c e) s st fun v st1 => Lift v.truth fun p =>
        WIf (p = true) (WP (exec c a .run) s st1 Q) (WP (exec c b .run) s st1 Q) := by
  simp only [exec, wp_bind, wp_lift, wp_ite]
theorem wp_ret (e : Expr) (Q : Ctl → St → Prop) :
    WP (exec c (.ret e) .run) s st Q = WP (eval c e) s st fun v st1 => Q (.ret v) st1 := by
  simp only [exec, wp_bind, wp_pure]
theorem wp_retVoid (Q : Ctl → St → Prop) : WP (exec c .retVoid .run) s st Q = Q (.ret .undef) st := by
  simp only [exec, wp_pure]
theorem wp_brk (Q : Ctl → St → Prop) : WP (exec c .brk .run) s st Q = Q .brk st := by
  simp only [exec, wp_pure]
theorem wp_cont (Q : Ctl → St → Prop) : WP (exec c .cont .run) s st Q = Q .cont st := by
  simp only [exec, wp_pure]
theorem wp_goto (l : String) (Q : Ctl → St → Prop) : WP (exec c (.goto l) .run) s st Q = Q (.next (.label l)) st := by
  simp only [exec, wp_pure]
theorem wp_label (l : String) (m : Mode) (Q : Ctl → St → Prop) :
    WP (exec c (.label l) m) s st Q = Q (.next (if m = .label l then .run else m)) st := by
  simp only [exec, wp_pure]
theorem wp_case (v : Int) (m : Mode) (Q : Ctl → St → Prop) :
    WP (exec c (.case v) m) s st Q = Q (.next (if m = .case v then .run else m)) st := by
  simp only [exec, wp_pure]
theorem wp_default (m : Mode) (Q : Ctl → St → Prop) :
    WP (exec c .default m) s st Q = Q (.next (if m = .dflt then .run else m)) st := by
  simp only [exec, wp_pure]
theorem label_run (l : String) (Q : Ctl → St → Prop) : WP (exec c (.label l) .run) s st Q = Q (.next .run) st := by
  rw [wp_label, if_neg (by simp)]
theorem label_hit (l : String) (Q : Ctl → St → Prop) : WP (exec c (.label l) (.label l)) s st Q = Q (.next .run) st := by
  rw [wp_label, if_pos rfl]
theorem label_case (l : String) (k : Int) (Q : Ctl → St → Prop) : WP (exec c (.label l) (.case k)) s st Q = Q (.next (.case k)) st := by
  rw [wp_label, if_neg (by simp)]
theorem label_dflt (l : String) (Q : Ctl → St → Prop) : WP (exec c (.label l) .dflt) s st Q = Q (.next .dflt) st := by
  rw [wp_label, if_neg (by simp)]
theorem case_run (v : Int) (Q : Ctl → St → Prop) : WP (exec c (.case v) .run) s st Q = Q (.next .run) st := by
  rw [wp_case, if_neg (by simp)]
theorem case_hit (v : Int) (Q : Ctl → St → Prop) : WP (exec c (.case v) (.case v)) s st Q = Q (.next .run) st := by
  rw [wp_case, if_pos rfl]
theorem case_miss (v k : Int) (h : ¬ k = v) (Q : Ctl → St → Prop) : WP (exec c (.case v) (.case k)) s st Q = Q (.next (.case k)) st := by
  rw [wp_case, if_neg (by simpa using h)]
theorem case_label (v : Int) (l : String) (Q : Ctl → St → Prop) : WP (exec c (.case v) (.label l)) s st Q = Q (.next (.label l)) st := by
  rw [wp_case, if_neg (by simp)]
theorem case_dflt (v : Int) (Q : Ctl → St → Prop) : WP (exec c (.case v) .dflt) s st Q = Q (.next .dflt) st := by
  rw [wp_case, if_neg (by simp)]
theorem default_run (Q : Ctl → St → Prop) : WP (exec c .default .run) s st Q = Q (.next .run) st := by
  rw [wp_default, if_neg (by simp)]
theorem default_hit (Q : Ctl → St → Prop) : WP (exec c .default .dflt) s st Q = Q (.next .run) st := by
  rw [wp_default, if_pos rfl]
theorem default_case (k : Int) (Q : Ctl → St → Prop) : WP (exec c .default (.case k)) s st Q = Q (.next (.case k)) st := by
  rw [wp_default, if_neg (by simp)]
theorem default_label (l : String) (Q : Ctl → St → Prop) : WP (exec c .default (.label l)) s st Q = Q (.next (.label l)) st := by
  rw [wp_default, if_neg (by simp)]
theorem wp_decl (i : Nat) (Q : Ctl → St → Prop) :
    WP (exec c (.decl i) .run) s st Q = Q (.next .run) { st with fr := st.fr.set i .undef } := by
  simp only [exec, wp_bind, wp_pure]
  exact wp_of_eq rfl
theorem wp_declMem (i n : Nat) (init : List Val) (fill : Val) (Q : Ctl → St → Prop) :
    WP (exec c (.declMem i n init fill) .run) s st Q =
      Q (.next .run) { st with mem := upd st.mem (.stack st.stk) (some (init ++ List.replicate (n - init.length) fill)),
                               stk := st.stk + 1, fr := st.fr.set i (.ptr (some (.stack st.stk, 0))) } := by
  simp only [exec, wp_bind, wp_pure]
  exact wp_of_eq rfl
theorem wp_declArr (i n : Nat) (Q : Ctl → St → Prop) :
    WP (exec c (.declArr i n) .run) s st Q =
      Q (.next .run) { st with mem := upd st.mem (.stack st.stk) (some ((List.range n).map c.garb)),
                               stk := st.stk + 1, fr := st.fr.set i (.ptr (some (.stack st.stk, 0))) } := by
  simp only [exec, wp_bind, wp_pure]
  exact wp_of_eq rfl

/-! Statements that are jumped over. -/

theorem jump_exp_case (e : Expr) (k : Int) (Q : Ctl → St → Prop) : WP (exec c (.exp e) (.case k)) s st Q = Q (.next (.case k)) st := by
  simp only [exec, wp_pure]
theorem jump_exp_dflt (e : Expr)  (Q : Ctl → St → Prop) : WP (exec c (.exp e) .dflt) s st Q = Q (.next .dflt) st := by
  simp only [exec, wp_pure]
theorem jump_exp_label (e : Expr) (k : String) (Q : Ctl → St → Prop) : WP (exec c (.exp e) (.label k)) s st Q = Q (.next (.label k)) st := by
  simp only [exec, wp_pure]
theorem jump_ite_case (e : Expr) (a b : Stmt) (k : Int) (Q : Ctl → St → Prop) : WP (exec c (.ite e a b) (.case k)) s st Q = Q (.next (.case k)) st := by
  simp only [exec, wp_pure]
theorem jump_ite_dflt (e : Expr) (a b : Stmt)  (Q : Ctl → St → Prop) : WP (exec c (.ite e a b) .dflt) s st Q = Q (.next .dflt) st := by
  simp only [exec, wp_pure]
theorem jump_ite_label (e : Expr) (a b : Stmt) (k : String) (Q : Ctl → St → Prop) : WP (exec c (.ite e a b) (.label k)) s st Q = Q (.next (.label k)) st := by
  simp only [exec, wp_pure]
theorem jump_loop_case (e : Expr) (b : Stmt) (f : Expr) (k : Int) (Q : Ctl → St → Prop) : WP (exec c (.loop e b f) (.case k)) s st Q = Q (.next (.case k)) st := by
  simp only [exec, wp_pure]
theorem jump_loop_dflt (e : Expr) (b : Stmt) (f : Expr)  (Q : Ctl → St → Prop) : WP (exec c (.loop e b f) .dflt) s st Q = Q (.next .dflt) st := by
  simp only [exec, wp_pure]
theorem jump_loop_label (e : Expr) (b : Stmt) (f : Expr) (k : String) (Q : Ctl → St → Prop) : WP (exec c (.loop e b f) (.label k)) s st Q = Q (.next (.label k)) st := by
  simp only [exec, wp_pure]
theorem jump_switch_case (e : Expr) (b : Stmt) (k : Int) (Q : Ctl → St → Prop) : WP (exec c (.switch e b) (.case k)) s st Q = Q (.next (.case k)) st := by
  simp only [exec, wp_pure]
theorem jump_switch_dflt (e : Expr) (b : Stmt)  (Q : Ctl → St → Prop) : WP (exec c (.switch e b) .dflt) s st Q = Q (.next .dflt) st := by
  simp only [exec, wp_pure]
theorem jump_switch_label (e : Expr) (b : Stmt) (k : String) (Q : Ctl → St → Prop) : WP (exec c (.switch e b) (.label k)) s st Q = Q (.next (.label k)) st := by
  simp only [exec, wp_pure]
theorem jump_goto_case (l : String) (k : Int) (Q : Ctl → St → Prop) : WP (exec c (.goto l) (.case k)) s st Q = Q (.next (.case k)) st := by
  simp only [exec, wp_pure]
theorem jump_goto_dflt (l : String)  (Q : Ctl → St → Prop) : WP (exec c (.goto l) .dflt) s st Q = Q (.next .dflt) st := by
  simp only [exec, wp_pure]
theorem jump_goto_label (l : String) (k : String) (Q : Ctl → St → Prop) : WP (exec c (.goto l) (.label k)) s st Q = Q (.next (.label k)) st := by
  simp only [exec, wp_pure]
theorem jump_brk_case  (k : Int) (Q : Ctl → St → Prop) : WP (exec c .brk (.case k)) s st Q = Q (.next (.case k)) st := by
  simp only [exec, wp_pure]
theorem jump_brk_dflt   (Q : Ctl → St → Prop) : WP (exec c .brk .dflt) s st Q = Q (.next .dflt) st := by
  simp only [exec, wp_pure]
theorem jump_brk_label  (k : String) (Q : Ctl → St → Prop) : WP (exec c .brk (.label k)) s st Q = Q (.next (.label k)) st := by
  simp only [exec, wp_pure]
theorem jump_cont_case  (k : Int) (Q : Ctl → St → Prop) : WP (exec c .cont (.case k)) s st Q = Q (.next (.case k)) st := by
  simp only [exec, wp_pure]
theorem jump_cont_dflt   (Q : Ctl → St → Prop) : WP (exec c .cont .dflt) s st Q = Q (.next .dflt) st := by
  simp only [exec, wp_pure]
theorem jump_cont_label  (k : String) (Q : Ctl → St → Prop) : WP (exec c .cont (.label k)) s st Q = Q (.next (.label k)) st := by
  simp only [exec, wp_pure]
theorem jump_ret_case (e : Expr) (k : Int) (Q : Ctl → St → Prop) : WP (exec c (.ret e) (.case k)) s st Q = Q (.next (.case k)) st := by
  simp only [exec, wp_pure]
theorem jump_ret_dflt (e : Expr)  (Q : Ctl → St → Prop) : WP (exec c (.ret e) .dflt) s st Q = Q (.next .dflt) st := by
  simp only [exec, wp_pure]
theorem jump_ret_label (e : Expr) (k : String) (Q : Ctl → St → Prop) : WP (exec c (.ret e) (.label k)) s st Q = Q (.next (.label k)) st := by
  simp only [exec, wp_pure]
theorem jump_retVoid_case  (k : Int) (Q : Ctl → St → Prop) : WP (exec c .retVoid (.case k)) s st Q = Q (.next (.case k)) st := by
  simp only [exec, wp_pure]
theorem jump_retVoid_dflt   (Q : Ctl → St → Prop) : WP (exec c .retVoid .dflt) s st Q = Q (.next .dflt) st := by
  simp only [exec, wp_pure]
theorem jump_retVoid_label  (k : String) (Q : Ctl → St → Prop) : WP (exec c .retVoid (.label k)) s st Q = Q (.next (.label k)) st := by
  simp only [exec, wp_pure]
theorem jump_decl_case (i : Nat) (k : Int) (Q : Ctl → St → Prop) : WP (exec c (.decl i) (.case k)) s st Q = Q (.next (.case k)) st := by
  simp only [exec, wp_pure]
theorem jump_decl_dflt (i : Nat)  (Q : Ctl → St → Prop) : WP (exec c (.decl i) .dflt) s st Q = Q (.next .dflt) st := by
  simp only [exec, wp_pure]
theorem jump_decl_label (i : Nat) (k : String) (Q : Ctl → St → Prop) : WP (exec c (.decl i) (.label k)) s st Q = Q (.next (.label k)) st := by
  simp only [exec, wp_pure]
theorem jump_declMem_case (i n : Nat) (l : List Val) (v : Val) (k : Int) (Q : Ctl → St → Prop) : WP (exec c (.declMem i n l v) (.case k)) s st Q = Q (.next (.case k)) st := by
  simp only [exec, wp_pure]
theorem jump_declMem_dflt (i n : Nat) (l : List Val) (v : Val)  (Q : Ctl → St → Prop) : WP (exec c (.declMem i n l v) .dflt) s st Q = Q (.next .dflt) st := by
  simp only [exec, wp_pure]
theorem jump_declMem_label (i n : Nat) (l : List Val) (v : Val) (k : String) (Q : Ctl → St → Prop) : WP (exec c (.declMem i n l v) (.label k)) s st Q = Q (.next (.label k)) st := by
  simp only [exec, wp_pure]
theorem jump_declArr_case (i n : Nat) (k : Int) (Q : Ctl → St → Prop) : WP (exec c (.declArr i n) (.case k)) s st Q = Q (.next (.case k)) st := by
  simp only [exec, wp_pure]
theorem jump_declArr_dflt (i n : Nat)  (Q : Ctl → St → Prop) : WP (exec c (.declArr i n) .dflt) s st Q = Q (.next .dflt) st := by
  simp only [exec, wp_pure]
theorem jump_declArr_label (i n : Nat) (k : String) (Q : Ctl → St → Prop) : WP (exec c (.declArr i n) (.label k)) s st Q = Q (.next (.label k)) st := by
  simp only [exec, wp_pure]

/-- How a `switch` ends. -/
def Leave (Q : Ctl → St → Prop) : Ctl → St → Prop
  | .next .dflt, st => Q (.next .run) st
  | .brk, st => Q (.next .run) st
  | r, st => Q r st

/-- A `switch` after the search for the `case`: nothing found, search the `default`. -/
def Dflt (c : Ctx) (b : Stmt) (s : Sched) (Q : Ctl → St → Prop) : Ctl → St → Prop
  | .next (.case _), st => WP (exec c b .dflt) s st (Leave Q)
  | r, st => Leave Q r st

theorem leave_dflt (Q : Ctl → St → Prop) : Leave Q (.next .dflt) st = Q (.next .run) st := rfl
theorem leave_run (Q : Ctl → St → Prop) : Leave Q (.next .run) st = Q (.next .run) st := rfl
theorem leave_label (l : String) (Q : Ctl → St → Prop) : Leave Q (.next (.label l)) st = Q (.next (.label l)) st := rfl
theorem leave_brk (Q : Ctl → St → Prop) : Leave Q .brk st = Q (.next .run) st := rfl
theorem leave_cont (Q : Ctl → St → Prop) : Leave Q .cont st = Q .cont st := rfl
theorem leave_ret (v : Val) (Q : Ctl → St → Prop) : Leave Q (.ret v) st = Q (.ret v) st := rfl
theorem dflt_case (b : Stmt) (k : Int) (Q : Ctl → St → Prop) : Dflt c b s Q (.next (.case k)) st = WP (exec c b .dflt) s st (Leave Q) := rfl
theorem dflt_run (b : Stmt) (Q : Ctl → St → Prop) : Dflt c b s Q (.next .run) st = Q (.next .run) st := rfl
theorem dflt_label (b : Stmt) (l : String) (Q : Ctl → St → Prop) : Dflt c b s Q (.next (.label l)) st = Q (.next (.label l)) st := rfl
theorem dflt_brk (b : Stmt) (Q : Ctl → St → Prop) : Dflt c b s Q .brk st = Q (.next .run) st := rfl
theorem dflt_cont (b : Stmt) (Q : Ctl → St → Prop) : Dflt c b s Q .cont st = Q .cont st := rfl
theorem dflt_ret (b : Stmt) (v : Val) (Q : Ctl → St → Prop) : Dflt c b s Q (.ret v) st = Q (.ret v) st := rfl

theorem wp_switch (e : Expr) (b : Stmt) (Q : Ctl → St → Prop) :
    WP (exec c (.switch e b) .run) s st Q =
      WP (eval c e) s st fun v st1 => Lift v.getInt fun k => WP (exec c b (.case k)) s st1 (Dflt c b s Q) := by
  simp only [exec, wp_bind, wp_lift]
  congr 1
  funext v st1
  congr 1
  funext k
  congr 1
  funext r st2
  have hl : ∀ (r : Ctl) (st : St), WP (match r with
      | .next .dflt => pure (.next .run)
      | .brk => pure (.next .run)
      | r => pure r : X Ctl) s st Q = Leave Q r st := by
    intro r st
    cases r with
    | next m => cases m <;> simp only [Leave, wp_pure]
    | _ => simp only [Leave, wp_pure]
  cases r with
  | next m =>
    cases m with
    | case j =>
      simp only [Dflt]
      rw [wp_bind]
      congr 1
      funext r st
      exact hl r st
    | _ => simp only [Dflt, Leave]; rw [wp_bind, wp_pure]; exact wp_pure _ _ _ _
  | _ => simp only [Dflt, Leave]; rw [wp_bind, wp_pure]; exact wp_pure _ _ _ _

/-- What a loop does after one execution of its body. -/
def Again (S : X Unit) (I : St → Prop) (s : Sched) (Q : Ctl → St → Prop) : Ctl → St → Prop
  | .next .run, st => WP S s st fun _ st' => I st'
  | .cont, st => WP S s st fun _ st' => I st'
  | .brk, st => Q (.next .run) st
  | .next m, st => Q (.next m) st
  | .ret v, st => Q (.ret v) st

/-- Loops: an invariant with a decreasing index. -/
theorem wp_iter {C : X Bool} {B : X Ctl} {S : X Unit} {Q : Ctl → St → Prop} (I : Nat → St → Prop)
    (h : ∀ k st, I k st → WP C s st fun b st1 =>
      WIf (b = true) (WP B s st1 (Again S (fun st' => ∃ k', k' < k ∧ I k' st') s Q)) (Q (.next .run) st1)) :
    ∀ (n k : Nat) (st : St), I k st → k < n → WP (iter C B S n) s st Q := by
  intro n
  induction n with
  | zero => intro k st _ hv; omega
  | succ n ih =>
    intro k st hI hv
    unfold iter
    rw [wp_bind]
    refine WP_mono (h k st hI) ?_
    intro b st1 h1
    rw [wp_ite]
    refine ⟨fun hb => ?_, fun hb => ?_⟩
    · rw [wp_bind]
      refine WP_mono (h1.1 hb) ?_
      intro r st2 h2
      cases r with
      | next m =>
        cases m with
        | run =>
          simp only [Again] at h2
          simp only [wp_bind]
          refine WP_mono h2 fun _ st3 h3 => ?_
          obtain ⟨k', hk, h3⟩ := h3
          exact ih k' st3 h3 (by omega)
        | label l => simpa only [Again, wp_pure] using h2
        | case v => simpa only [Again, wp_pure] using h2
        | dflt => simpa only [Again, wp_pure] using h2
      | brk => simpa only [Again, wp_pure] using h2
      | cont =>
        simp only [Again] at h2
        simp only [wp_bind]
        refine WP_mono h2 fun _ st3 h3 => ?_
        obtain ⟨k', hk, h3⟩ := h3
        exact ih k' st3 h3 (by omega)
      | ret v => simpa only [Again, wp_pure] using h2
    · rw [wp_pure]
      exact h1.2 hb

/-- Loops, with condition, body and step as C text. -/
theorem wp_loop {c : Ctx} {s : Sched} {st : St} {e : Expr} {b : Stmt} {step : Expr} {Q : Ctl → St → Prop}
    (I : Nat → St → Prop) (k : Nat)
    (h : ∀ k st, I k st → WP (eval c e) s st fun v st1 => Lift v.truth fun p =>
      WIf (p = true)
        (WP (exec c b .run) s st1 (Again (do let _ ← eval c step; pure ()) (fun st' => ∃ k', k' < k ∧ I k' st') s Q))
        (Q (.next .run) st1))
    (hI : I k st) (hV : k < c.fuel) : WP (exec c (.loop e b step) .run) s st Q := by
  simp only [exec]
  refine wp_iter s I ?_ _ _ _ hI hV
  intro k st hst
  simp only [wp_bind, wp_lift]
  exact h k st hst

theorem again_next (S : X Unit) (I : St → Prop) (Q : Ctl → St → Prop) :
    Again S I s Q (.next .run) st = WP S s st fun _ st' => I st' := rfl
theorem again_cont (S : X Unit) (I : St → Prop) (Q : Ctl → St → Prop) :
    Again S I s Q .cont st = WP S s st fun _ st' => I st' := rfl
theorem again_brk (S : X Unit) (I : St → Prop) (Q : Ctl → St → Prop) : Again S I s Q .brk st = Q (.next .run) st := rfl
theorem again_ret (S : X Unit) (I : St → Prop) (Q : Ctl → St → Prop) (v : Val) :
    Again S I s Q (.ret v) st = Q (.ret v) st := rfl
theorem again_label (S : X Unit) (I : St → Prop) (Q : Ctl → St → Prop) (l : String) :
    Again S I s Q (.next (.label l)) st = Q (.next (.label l)) st := rfl

/-- How a call ends. -/
def Return (st0 : St) (Q : Val → St → Prop) : Ctl → St → Prop
  | .ret v, st => Q v { st with fr := st0.fr, mem := dropStack st0.stk st.mem, stk := st0.stk }
  | .next .run, st => Q .undef { st with fr := st0.fr, mem := dropStack st0.stk st.mem, stk := st0.stk }
  | _, _ => False

theorem return_ret (st0 : St) (Q : Val → St → Prop) (v : Val) :
    Return st0 Q (.ret v) st = Q v { st with fr := st0.fr, mem := dropStack st0.stk st.mem, stk := st0.stk } := rfl
theorem return_next (st0 : St) (Q : Val → St → Prop) :
    Return st0 Q (.next .run) st = Q .undef { st with fr := st0.fr, mem := dropStack st0.stk st.mem, stk := st0.stk } := rfl

theorem wp_runFun (f : CFun) (args : List Val) (Q : Val → St → Prop)
    (h : WP (exec c f.body .run) s { st with fr := args ++ List.replicate (f.slots - f.params) .undef } (Return st Q)) :
    WP (runFun c f args) s st Q := by
  obtain ⟨r, st', h1, h2⟩ := h
  unfold WP runFun
  rw [h1]
  cases r with
  | ret v => exact ⟨_, _, rfl, h2⟩
  | next m =>
    cases m with
    | run => exact ⟨_, _, rfl, h2⟩
    | label l => exact h2.elim
    | case v => exact h2.elim
    | dflt => exact h2.elim
  | brk => exact h2.elim
  | cont => exact h2.elim

end rules

section memory
variable {c : Ctx} {s : Sched} {st : St} {b : Blk} {l : List Val}

theorem wp_loadV (h : cont c.glob st.mem b = some l) {t : STy} {o : Int} {Q : Val → St → Prop} {v w : Val}
    (ho : 0 ≤ o) (hv : l[o.toNat]? = some v) (hw : asTy c.cs t v = .ok w) (hq : Q w st) :
    WP (loadV c t (.ptr (some (b, o)))) s st Q := by
  rw [wp_of_eq (loadV_cont h ho hv hw)]
  exact hq

theorem wp_storeV (hb : b.own = true) (h : st.mem b = some l) {t : STy} {o : Int} {Q : Unit → St → Prop} {v w : Val}
    (ho : 0 ≤ o) (hl : o.toNat < l.length) (hw : toCell t v = .ok w)
    (hq : Q () { st with mem := upd st.mem b (some (l.set o.toNat w)) }) :
    WP (storeV c t (.ptr (some (b, o))) v) s st Q := by
  rw [wp_of_eq (storeV_own hb h ho hl hw)]
  exact hq

theorem wp_paddV (h : cont c.glob st.mem b = some l) {o d : Int} {Q : Val → St → Prop}
    (ho : 0 ≤ o + d) (hl : o + d ≤ l.length) (hq : Q (.ptr (some (b, o + d))) st) :
    WP (paddV c (.ptr (some (b, o))) d) s st Q := by
  rw [wp_of_eq (paddV_cont h ho hl)]
  exact hq

end memory

theorem truth_ofBool (b : Bool) : (Val.ofBool b).truth = .ok b := by cases b <;> rfl
theorem truth_int (v : Int) : (Val.int v).truth = .ok (decide (v ≠ 0)) := rfl
theorem truth_some (p : Blk × Int) : (Val.ptr (some p)).truth = .ok true := rfl
theorem truth_null : (Val.ptr none).truth = .ok false := rfl
theorem getInt_ofBool (b : Bool) : (Val.ofBool b).getInt = .ok (if b then 1 else 0) := rfl
theorem getInt_int (v : Int) : (Val.int v).getInt = .ok v := rfl

open Lean Meta in
/-- Simplify only the state of a `WP` that no rule applies to, and the operands of a memory access or call. -/
simproc_decl stopWP (WP _ _ _ _) := fun e => do
  let e := e.cleanupAnnotations
  let_expr WP _ m s st Q := e | return .continue
  let f := m.getAppFn
  if f.isConstOf ``ite then return .continue
  let rm ← if f.isConstOf ``exec || f.isConstOf ``eval || f.isConstOf ``evalArgs || f.isConstOf ``Bind.bind || f.isConstOf ``Pure.pure
    then pure { expr := m } else Simp.simp m
  let r ← Simp.simp st
  let e' := mkAppN e.getAppFn #[e.getAppArgs[0]!, rm.expr, s, r.expr, Q]
  match r.proof?, rm.proof? with
  | none, none => if rm.expr == m then return .done { expr := e' } else return .visit { expr := e' }
  | _, _ =>
    let pr ← mkAppOptM ``WP_congr #[none, none, none, s, none, none, Q, some (← rm.getProof), some (← r.getProof)]
    if rm.expr != m then return .visit { expr := e', proof? := pr } else return .done { expr := e', proof? := pr }

theorem wif_pos {p p' A B : Prop} (e : p = p') (h : p') : WIf p A B = A := by subst e; simp [WIf, h]
theorem wif_neg {p p' A B : Prop} (e : p = p') (h : ¬ p') : WIf p A B = B := by subst e; simp [WIf, h]

open Lean Meta in
/-- Simplify only the condition of a `WIf`, and choose a branch if the condition can be decided. -/
simproc_decl stopWIf (WIf _ _ _) := fun e => do
  let e := e.cleanupAnnotations
  let_expr WIf p A B := e | return .continue
  let r ← Simp.simp p
  if r.expr.isTrue then
    return .visit { expr := A, proof? := some (← mkAppOptM ``wif_pos #[none, none, A, B, some (← r.getProof), mkConst ``True.intro]) }
  if r.expr.isFalse then
    return .visit { expr := B, proof? := some (← mkAppOptM ``wif_neg #[none, none, A, B, some (← r.getProof), mkConst ``not_false]) }
  let d := (← Simp.getMethods).discharge?
  if let some h ← d r.expr then
    return .visit { expr := A, proof? := some (← mkAppOptM ``wif_pos #[none, none, A, B, some (← r.getProof), h]) }
  if let some h ← d (mkNot r.expr) then
    return .visit { expr := B, proof? := some (← mkAppOptM ``wif_neg #[none, none, A, B, some (← r.getProof), h]) }
  let e' := mkAppN e.getAppFn #[r.expr, A, B]
  let pr ← match r.proof? with
    | none => pure none
    | some h => pure (some (← mkAppOptM ``WIf_congr #[none, none, A, B, h]))
  return .done { expr := e', proof? := pr }

open Lean Meta in
/-- Simplify only the result of a `Lift`. -/
simproc_decl stopLift (Lift _ _) := fun e => do
  let e := e.cleanupAnnotations
  let_expr Lift _ r0 Q := e | return .continue
  let r ← Simp.simp r0
  let e' := mkAppN e.getAppFn #[e.getAppArgs[0]!, r.expr, Q]
  let pr ← match r.proof? with
    | none => pure none
    | some h => pure (some (← mkAppOptM ``Lift_congr #[none, none, none, Q, h]))
  if r.expr.isAppOf ``Except.ok then return .visit { expr := e', proof? := pr }
  else return .done { expr := e', proof? := pr }

/-- Execute until a memory access, a call, a loop or an undecided condition. -/
macro "xs" "[" ts:Lean.Parser.Tactic.simpLemma,* "]" : tactic => `(tactic|
  simp (disch := omega) only [↓wp_num, ↓wp_null, ↓wp_str, ↓wp_glob, ↓wp_loc, ↓wp_cast, ↓wp_ar, ↓wp_cmp, ↓wp_not, ↓wp_land, ↓wp_lor, ↓wp_cond,
    ↓wp_comma, ↓wp_padd, ↓wp_pdiff, ↓wp_load, ↓wp_store, ↓wp_set, ↓wp_post, ↓wp_copy, ↓wp_call, ↓wp_args_nil, ↓wp_args_cons,
    ↓wp_seq, ↓wp_skip, ↓wp_exp, ↓wp_if, ↓wp_ret, ↓wp_retVoid, ↓wp_brk, ↓wp_cont, ↓wp_goto, ↓label_run, ↓label_hit, ↓label_case, ↓label_dflt, ↓case_run, ↓case_hit, ↓case_miss, ↓case_label, ↓case_dflt, ↓default_run, ↓default_hit, ↓default_case, ↓default_label,
    ↓wp_switch, ↓leave_dflt, ↓leave_run, ↓leave_label, ↓leave_brk, ↓leave_cont, ↓leave_ret, ↓dflt_case, ↓dflt_run, ↓dflt_label, ↓dflt_brk, ↓dflt_cont, ↓dflt_ret,
    ↓jump_exp_case, ↓jump_exp_dflt, ↓jump_exp_label, ↓jump_ite_case, ↓jump_ite_dflt, ↓jump_ite_label, ↓jump_loop_case,
    ↓jump_loop_dflt, ↓jump_loop_label, ↓jump_switch_case, ↓jump_switch_dflt, ↓jump_switch_label, ↓jump_goto_case, ↓jump_goto_dflt,
    ↓jump_goto_label, ↓jump_brk_case, ↓jump_brk_dflt, ↓jump_brk_label, ↓jump_cont_case, ↓jump_cont_dflt, ↓jump_cont_label,
    ↓jump_ret_case, ↓jump_ret_dflt, ↓jump_ret_label, ↓jump_retVoid_case, ↓jump_retVoid_dflt, ↓jump_retVoid_label, ↓jump_decl_case,
    ↓jump_decl_dflt, ↓jump_decl_label, ↓jump_declMem_case, ↓jump_declMem_dflt, ↓jump_declMem_label, ↓jump_declArr_case,
    ↓jump_declArr_dflt, ↓jump_declArr_label,
    Mode.case.injEq, Mode.label.injEq,
    ↓wp_decl, ↓wp_declMem, ↓wp_declArr, ↓wp_bind, ↓wp_pure, ↓wp_lift, ↓wp_ite, ↓then_next, ↓then_brk, ↓then_cont, ↓then_ret, ↓again_next,
    ↓again_cont, ↓again_brk, ↓again_ret, ↓again_label, ↓return_ret, ↓return_next, ↓stopWP, ↓stopWIf, ↓stopLift,
    List.getD_cons_zero, List.getD_cons_succ, List.set_cons_zero, List.set_cons_succ,
    ↓Lift_ok, ↓WIf_true, ↓WIf_false, getInt_ofBool, getInt_int, truth_ofBool, truth_int, truth_some, truth_null, compareV, pdiffV,
    arith_add, arith_sub, arith_mul, arith_div, arith_mod, arith_shr, arith_shl, arith_band, arith_bor,
    Int.one_mul, Int.toNat_natCast, Int.reduceToNat, ovf_i32, ovf_i64, ovf_u64, ovf_u8, wrapr_i32, wrapr_u64, wrapr_u8, wrapr_i64,
    COp.ints, decide_eq_true_eq, Bool.not_eq_true', decide_eq_false_iff_not, Nat.reduceAdd, reduceIte, ne_eq,
    reduceCtorEq, not_false_eq_true, not_true_eq_false, decide_true, decide_false, true_and, and_true, Bool.false_eq_true, Bool.not_true, Bool.not_false, $ts,*])

/-- Like `xs`, but also stop at `if` statements; execute until a memory access, a call, a loop or an undecided condition. -/
macro "xi" "[" ts:Lean.Parser.Tactic.simpLemma,* "]" : tactic => `(tactic|
  simp (disch := omega) only [↓wp_num, ↓wp_null, ↓wp_str, ↓wp_glob, ↓wp_loc, ↓wp_cast, ↓wp_ar, ↓wp_cmp, ↓wp_not, ↓wp_land, ↓wp_lor, ↓wp_cond,
    ↓wp_comma, ↓wp_padd, ↓wp_pdiff, ↓wp_load, ↓wp_store, ↓wp_set, ↓wp_post, ↓wp_copy, ↓wp_call, ↓wp_args_nil, ↓wp_args_cons,
    ↓wp_seq, ↓wp_skip, ↓wp_exp, ↓wp_ret, ↓wp_retVoid, ↓wp_brk, ↓wp_cont, ↓wp_goto, ↓label_run, ↓label_hit, ↓label_case, ↓label_dflt, ↓case_run, ↓case_hit, ↓case_miss, ↓case_label, ↓case_dflt, ↓default_run, ↓default_hit, ↓default_case, ↓default_label,
    ↓wp_switch, ↓leave_dflt, ↓leave_run, ↓leave_label, ↓leave_brk, ↓leave_cont, ↓leave_ret, ↓dflt_case, ↓dflt_run, ↓dflt_label, ↓dflt_brk, ↓dflt_cont, ↓dflt_ret,
    ↓jump_exp_case, ↓jump_exp_dflt, ↓jump_exp_label, ↓jump_ite_case, ↓jump_ite_dflt, ↓jump_ite_label, ↓jump_loop_case,
    ↓jump_loop_dflt, ↓jump_loop_label, ↓jump_switch_case, ↓jump_switch_dflt, ↓jump_switch_label, ↓jump_goto_case, ↓jump_goto_dflt,
    ↓jump_goto_label, ↓jump_brk_case, ↓jump_brk_dflt, ↓jump_brk_label, ↓jump_cont_case, ↓jump_cont_dflt, ↓jump_cont_label,
    ↓jump_ret_case, ↓jump_ret_dflt, ↓jump_ret_label, ↓jump_retVoid_case, ↓jump_retVoid_dflt, ↓jump_retVoid_label, ↓jump_decl_case,
    ↓jump_decl_dflt, ↓jump_decl_label, ↓jump_declMem_case, ↓jump_declMem_dflt, ↓jump_declMem_label, ↓jump_declArr_case,
    ↓jump_declArr_dflt, ↓jump_declArr_label,
    Mode.case.injEq, Mode.label.injEq,
    ↓wp_decl, ↓wp_declMem, ↓wp_declArr, ↓wp_bind, ↓wp_pure, ↓wp_lift, ↓wp_ite, ↓then_next, ↓then_brk, ↓then_cont, ↓then_ret, ↓again_next,
    ↓again_cont, ↓again_brk, ↓again_ret, ↓again_label, ↓return_ret, ↓return_next, ↓stopWP, ↓stopWIf, ↓stopLift,
    List.getD_cons_zero, List.getD_cons_succ, List.set_cons_zero, List.set_cons_succ,
    ↓Lift_ok, ↓WIf_true, ↓WIf_false, getInt_ofBool, getInt_int, truth_ofBool, truth_int, truth_some, truth_null, compareV, pdiffV,
    arith_add, arith_sub, arith_mul, arith_div, arith_mod, arith_shr, arith_shl, arith_band, arith_bor,
    Int.one_mul, Int.toNat_natCast, Int.reduceToNat, ovf_i32, ovf_i64, ovf_u64, ovf_u8, wrapr_i32, wrapr_u64, wrapr_u8, wrapr_i64,
    COp.ints, decide_eq_true_eq, Bool.not_eq_true', decide_eq_false_iff_not, Nat.reduceAdd, reduceIte, ne_eq,
    reduceCtorEq, not_false_eq_true, not_true_eq_false, decide_true, decide_false, true_and, and_true, Bool.false_eq_true, Bool.not_true, Bool.not_false, $ts,*])

/-- Like `xs`, but also stop at assignments to memory, before evaluating their operands; execute until a memory access, a call, a loop or an undecided condition. -/
macro "xt" "[" ts:Lean.Parser.Tactic.simpLemma,* "]" : tactic => `(tactic|
  simp (disch := omega) only [↓wp_num, ↓wp_null, ↓wp_str, ↓wp_glob, ↓wp_loc, ↓wp_cast, ↓wp_ar, ↓wp_cmp, ↓wp_not, ↓wp_land, ↓wp_lor, ↓wp_cond,
    ↓wp_comma, ↓wp_padd, ↓wp_pdiff, ↓wp_load, ↓wp_set, ↓wp_post, ↓wp_copy, ↓wp_call, ↓wp_args_nil, ↓wp_args_cons,
    ↓wp_seq, ↓wp_skip, ↓wp_exp, ↓wp_if, ↓wp_ret, ↓wp_retVoid, ↓wp_brk, ↓wp_cont, ↓wp_goto, ↓label_run, ↓label_hit, ↓label_case, ↓label_dflt, ↓case_run, ↓case_hit, ↓case_miss, ↓case_label, ↓case_dflt, ↓default_run, ↓default_hit, ↓default_case, ↓default_label,
    ↓wp_switch, ↓leave_dflt, ↓leave_run, ↓leave_label, ↓leave_brk, ↓leave_cont, ↓leave_ret, ↓dflt_case, ↓dflt_run, ↓dflt_label, ↓dflt_brk, ↓dflt_cont, ↓dflt_ret,
    ↓jump_exp_case, ↓jump_exp_dflt, ↓jump_exp_label, ↓jump_ite_case, ↓jump_ite_dflt, ↓jump_ite_label, ↓jump_loop_case,
    ↓jump_loop_dflt, ↓jump_loop_label, ↓jump_switch_case, ↓jump_switch_dflt, ↓jump_switch_label, ↓jump_goto_case, ↓jump_goto_dflt,
    ↓jump_goto_label, ↓jump_brk_case, ↓jump_brk_dflt, ↓jump_brk_label, ↓jump_cont_case, ↓jump_cont_dflt, ↓jump_cont_label,
    ↓jump_ret_case, ↓jump_ret_dflt, ↓jump_ret_label, ↓jump_retVoid_case, ↓jump_retVoid_dflt, ↓jump_retVoid_label, ↓jump_decl_case,
    ↓jump_decl_dflt, ↓jump_decl_label, ↓jump_declMem_case, ↓jump_declMem_dflt, ↓jump_declMem_label, ↓jump_declArr_case,
    ↓jump_declArr_dflt, ↓jump_declArr_label,
    Mode.case.injEq, Mode.label.injEq,
    ↓wp_decl, ↓wp_declMem, ↓wp_declArr, ↓wp_bind, ↓wp_pure, ↓wp_lift, ↓wp_ite, ↓then_next, ↓then_brk, ↓then_cont, ↓then_ret, ↓again_next,
    ↓again_cont, ↓again_brk, ↓again_ret, ↓again_label, ↓return_ret, ↓return_next, ↓stopWP, ↓stopWIf, ↓stopLift,
    List.getD_cons_zero, List.getD_cons_succ, List.set_cons_zero, List.set_cons_succ,
    ↓Lift_ok, ↓WIf_true, ↓WIf_false, getInt_ofBool, getInt_int, truth_ofBool, truth_int, truth_some, truth_null, compareV, pdiffV,
    arith_add, arith_sub, arith_mul, arith_div, arith_mod, arith_shr, arith_shl, arith_band, arith_bor,
    Int.one_mul, Int.toNat_natCast, Int.reduceToNat, ovf_i32, ovf_i64, ovf_u64, ovf_u8, wrapr_i32, wrapr_u64, wrapr_u8, wrapr_i64,
    COp.ints, decide_eq_true_eq, Bool.not_eq_true', decide_eq_false_iff_not, Nat.reduceAdd, reduceIte, ne_eq,
    reduceCtorEq, not_false_eq_true, not_true_eq_false, decide_true, decide_false, true_and, and_true, Bool.false_eq_true, Bool.not_true, Bool.not_false, $ts,*])

/-- Close a goal about the contents of memory. -/
macro "xmem" : tactic => `(tactic|
  first
    | assumption
    | exact upd_same _ _ _
    | exact cont_lit _
    | (refine (cont_own (by first | assumption | rfl)).trans ?_; first | assumption | exact upd_same _ _ _)
    | (simp only [cont, cont_own, upd_same, upd, reduceCtorEq, ↓reduceIte, *]; done)
    | (simp [cont, cont_own, upd, *]; done))

/-- A load from memory, the object being known. -/
macro "xload" : tactic => `(tactic| (apply wp_loadV; (focus xmem)))

/-- A store to memory. -/
macro "xstore" : tactic => `(tactic| (apply wp_storeV; (focus first | assumption | rfl); (focus xmem)))

/-- Pointer arithmetic. -/
macro "xpadd" : tactic => `(tactic| (apply wp_paddV; (focus xmem)))

theorem asTy_char (cs : Bool) (b : UInt8) : asTy cs (.int .char) (.int b.toNat) = .ok (.int (charVal cs b)) := by
  simp [asTy, wrap_char]

theorem charVal_eq_zero (cs : Bool) (b : UInt8) : charVal cs b = 0 ↔ b = 0 := by
  have := b.toNat_lt
  unfold charVal
  have h0 : b = 0 ↔ b.toNat = 0 := by
    constructor
    · rintro rfl; rfl
    · intro h; exact UInt8.toNat_inj.mp h
  rw [h0]
  split
  · rename_i h
    simp at h
    omega
  · omega

theorem toBytes_get {l : List Val} {i : Nat} {x : UInt8} (h : (toBytes l)[i]? = some x) : l[i]? = some (.int x.toNat) := by
  induction l generalizing i with
  | nil => simp [toBytes] at h
  | cons a t ih =>
    cases a with
    | int v =>
      unfold toBytes at h
      split at h
      · rename_i hv
        cases i with
        | zero =>
          simp only [List.getElem?_cons_zero, Option.some.injEq] at h ⊢
          subst h
          have : (UInt8.ofNat v.toNat).toNat = v.toNat := by simp; omega
          rw [this]
          congr 1
          omega
        | succ i => exact ih h
      · simp at h
    | ptr p => simp [toBytes] at h
    | undef => simp [toBytes] at h

theorem toBytes_cells_append (b : Bytes) (l : List Val) : toBytes (cells b ++ l) = b ++ toBytes l := by
  induction b with
  | nil => simp [cells]
  | cons a t ih =>
    have := a.toNat_lt
    simp only [cells, List.map_cons, List.cons_append] at ih ⊢
    rw [toBytes, if_pos (by omega), ih]
    simp

theorem toBytes_cells (b : Bytes) : toBytes (cells b) = b := by
  have := toBytes_cells_append b []
  simpa [toBytes] using this

theorem toBytes_length_le (l : List Val) : (toBytes l).length ≤ l.length := by
  induction l with
  | nil => simp [toBytes]
  | cons a t ih =>
    cases a with
    | int v =>
      unfold toBytes
      split <;> simp
      omega
    | ptr p => simp [toBytes]
    | undef => simp [toBytes]

/-- The bytes that can be read from offset `o` on. -/
def bytesFrom (l : List Val) (o : Nat) : Bytes := toBytes (l.drop o)

theorem bytesFrom_get {l : List Val} {o i : Nat} {x : UInt8} (h : (bytesFrom l o)[i]? = some x) :
    l[o + i]? = some (.int x.toNat) := by
  have := toBytes_get h
  simpa using this

theorem bytesFrom_lt {l : List Val} {o i : Nat} {x : UInt8} (h : (bytesFrom l o)[i]? = some x) : o + i < l.length := by
  have := bytesFrom_get h
  exact (List.getElem?_eq_some_iff.mp this).1

theorem bytesFrom_cells (b : Bytes) (o : Nat) : bytesFrom (cells b) o = b.drop o := by
  have : (cells b).drop o = cells (b.drop o) := by simp [cells]
  rw [bytesFrom, this, toBytes_cells]

section bytes
variable {c : Ctx} {s : Sched} {st : St} {b : Blk} {l : List Val}

theorem wp_load_char (h : cont c.glob st.mem b = some l) {p : Int} {o i : Nat} {Q : Val → St → Prop} {x : UInt8}
    (hx : (bytesFrom l o)[i]? = some x) (ho : p = ((o + i : Nat) : Int)) (hq : Q (.int (charVal c.cs x)) st) :
    WP (loadV c (.int .char) (.ptr (some (b, p)))) s st Q := by
  subst ho
  exact wp_loadV h (by omega) (v := .int x.toNat) (bytesFrom_get hx) (asTy_char _ _) hq

theorem wp_load_u8 (h : cont c.glob st.mem b = some l) {p : Int} {o i : Nat} {Q : Val → St → Prop} {x : UInt8}
    (hx : (bytesFrom l o)[i]? = some x) (ho : p = ((o + i : Nat) : Int)) (hq : Q (.int x.toNat) st) :
    WP (loadV c (.int .u8) (.ptr (some (b, p)))) s st Q := by
  subst ho
  exact wp_loadV h (by omega) (v := .int x.toNat) (w := .int x.toNat) (bytesFrom_get hx) (by simp [asTy, wrap_u8]) hq

end bytes

theorem drop_cons {α : Type} {l : List α} {i : Nat} {a : α} (h : l[i]? = some a) : l.drop i = a :: l.drop (i + 1) := by
  rw [List.getElem?_eq_some_iff] at h
  obtain ⟨h1, h2⟩ := h
  rw [← h2]
  exact List.drop_eq_getElem_cons h1

theorem drop_nil {α : Type} {l : List α} {i : Nat} (h : l[i]? = none) : l.drop i = [] := by
  simpa using h

theorem wp_res {α : Type} (r : Res α) (s : Sched) (st : St) (Q : α → St → Prop) :
    WP (X.res r) s st Q = ∃ a, r = .ok a ∧ Q a st := by
  apply propext
  cases r with
  | error e => simp [WP, X.res]
  | ok a => rw [wp_of_eq (m := X.res (.ok a)) rfl]; simp

theorem libc_tolower (els : String → List Val → X Val) (c : Ctx) (v : Int) (s : Sched) (st : St) (Q : Val → St → Prop) :
    WP (libc els c "tolower" [.int v]) s st Q = ∃ r, tolower v = .ok r ∧ Q (.int r) st := by
  rw [← wp_res _ s st (fun r st => Q (.int r) st)]
  show WP (do let r ← X.res (tolower v); pure (.int r)) s st Q = _
  rw [wp_bind]
  simp only [wp_pure]

theorem tolower_range {v r : Int} (h : tolower v = .ok r) : -1 ≤ r ∧ r ≤ 255 := by
  unfold tolower at h
  split at h
  · cases h; omega
  split at h
  · cases h
  split at h <;> cases h <;> omega

/-- A load of a byte. -/
macro "xbyte" h:term : tactic => `(tactic| first
  | (refine wp_load_char ?_ $h ?_ ?_; (focus xmem); (focus (try first | rfl | omega)))
  | (refine wp_load_u8 ?_ $h ?_ ?_; (focus xmem); (focus (try first | rfl | omega))))

/-- What a pointer argument points to. `m = none`: NULL. Otherwise `m` is the part of the object from the pointer on that consists
of initialised bytes. -/
def Pts (g : String → Option (List Val)) (mem : Blk → Option (List Val)) (v : Val) (m : Option Bytes) : Prop :=
  match m with
  | none => v = .ptr none
  | some bs => ∃ (b : Blk) (o : Nat) (l : List Val), v = .ptr (some (b, (o : Int))) ∧ cont g mem b = some l ∧ o ≤ l.length ∧
      bytesFrom l o = bs

end L8w8jwt.C
