import Verif.C.ParseProof
import Verif.C.UtilProof
/-!
# The text of src/decode.c:373-462 does what Model/Decode.lean says
-/

namespace L8w8jwt.C

open Src

/-! ## The statements -/

/-- `c = l8w8jwt_get_claim(claims->array, claims->length, name, 3)` -/
def vGet (i : Nat) (name : Bytes) : Stmt :=
  .exp (.set i (.call "l8w8jwt_get_claim" (.cons (.load .ptr (.loc 1)) (.cons (.load (.int .u64) (.padd 1 (.loc 1) (.num 1)))
    (.cons (.str name) (.cons (.num 3) .nil))))))

/-- `*out_validation_result |= flag` -/
def vFlag (flag : Int) : Stmt := .exp (.store (.int .u32) (.loc 2) (.ar .bor .u32 (.load (.int .u32) (.loc 2)) (.num flag)))

/-- `validation_length = n ? n : strlen(s)` -/
def vLen (off : Int) : Stmt :=
  .exp (.set 3 (.cond (.load (.int .u64) (.padd 1 (.loc 0) (.num (off + 1)))) (.load (.int .u64) (.padd 1 (.loc 0) (.num (off + 1))))
    (.call "strlen" (.cons (.load .ptr (.padd 1 (.loc 0) (.num off))) .nil))))

/-- decode.c:377-387 -/
def vStr (i : Nat) (off : Int) (name : Bytes) (flag : Int) : Stmt :=
  .ite (.cmp .ne (.load .ptr (.padd 1 (.loc 0) (.num off))) .null)
    (.seq (vGet i name)
      (.seq (vLen off)
        (.ite (.lor (.lor (.cmp .eq (.loc i) .null) (.cmp .ne (.load (.int .u64) (.padd 1 (.loc i) (.num 3))) (.loc 3)))
            (.cmp .ne (.call "strncmp" (.cons (.load .ptr (.padd 1 (.loc i) (.num 2))) (.cons (.load .ptr (.padd 1 (.loc 0) (.num off)))
              (.cons (.loc 3) .nil)))) (.num 0)))
          (vFlag flag) .skip)))
    .skip

/-- decode.c:427-434 -/
def vTime (i : Nat) (off tol : Int) (name : Bytes) (op : COp) (ar : AOp) (flag : Int) : Stmt :=
  .ite (.load (.int .i32) (.padd 1 (.loc 0) (.num off)))
    (.seq (vGet i name)
      (.ite (.lor (.cmp .eq (.loc i) .null)
          (.cmp op (.ar ar .i64 (.loc 8) (.load (.int .u8) (.padd 1 (.loc 0) (.num tol))))
            (.call "strtoll" (.cons (.load .ptr (.padd 1 (.loc i) (.num 2))) (.cons .null (.cons (.num 10) .nil))))))
        (vFlag flag) .skip))
    .skip

/-- decode.c:454-461 -/
def vTyp : Stmt :=
  .ite (.load .ptr (.padd 1 (.loc 0) (.num 19)))
    (.seq (vGet 12 (str "typ"))
      (.ite (.lor (.cmp .eq (.loc 12) .null)
          (.cmp .ne (.call "l8w8jwt_strncmpic" (.cons (.load .ptr (.padd 1 (.loc 12) (.num 2))) (.cons (.load .ptr (.padd 1 (.loc 0) (.num 19)))
            (.cons (.load (.int .u64) (.padd 1 (.loc 0) (.num 20))) .nil)))) (.num 0)))
        (vFlag 256) .skip))
    .skip

theorem vBody_eq : l8w8jwt_validate_claims.body = .seq (.decl 3)
    (.seq (vStr 4 5 (str "sub") 2) (.seq (vStr 5 7 (str "aud") 4) (.seq (vStr 6 3 (str "iss") 1) (.seq (vStr 7 9 (str "jti") 8)
      (.seq (.exp (.set 8 (.call "l8w8jwt_time" (.cons .null .nil))))
        (.seq (vTime 9 11 14 (str "exp") .gt .sub 16) (.seq (vTime 10 12 15 (str "nbf") .lt .add 32) (.seq (vTime 11 13 16 (str "iat") .lt .add 64) vTyp)))))))) := rfl

/-! ## What they do -/

/-- The objects that are read, for every content of the result variable `V`. -/
structure VCtx (m0 : Blk → Option (List Val)) (stk : Nat) (heap : Heap) (V P B A : Blk) (q : DecParams) (w : DecPtrs) (cs : List Claim) : Prop where
  own : V.own = true
  fits : cs.length < 18446744073709551616
  par : ∀ x, DecAt (upd m0 V (some [x])) P q w
  buf : ∀ x, ∃ r, cont globs (upd m0 V (some [x])) B = some (.ptr (some (A, 0)) :: .int cs.length :: r)
  arr : ∀ x, ClaimsAt (upd m0 V (some [x])) (.ptr (some (A, 0))) (some cs)
  wf : ∀ x fr, Wf ⟨fr, heap, upd m0 V (some [x]), stk⟩

/-- The parameters of the function. -/
structure VFr (V P B : Blk) (fr : List Val) : Prop where
  len : fr.length = 13
  p : fr.getD 0 .undef = .ptr (some (P, 0))
  b : fr.getD 1 .undef = .ptr (some (B, 0))
  v : fr.getD 2 .undef = .ptr (some (V, 0))

theorem getD_set_ne {α : Type} (l : List α) (i j : Nat) (v d : α) (h : i ≠ j) : (l.set i v).getD j d = l.getD j d := by
  simp [List.getD_eq_getElem?_getD, List.getElem?_set_ne h]

theorem getD_set_same {α : Type} (l : List α) (i : Nat) (v d : α) (h : i < l.length) : (l.set i v).getD i d = v := by
  simp [List.getD_eq_getElem?_getD, h]

theorem VFr.set {V P B : Blk} {fr : List Val} (h : VFr V P B fr) {i : Nat} (hi : 3 ≤ i) (v : Val) : VFr V P B (fr.set i v) where
  len := by simp [h.len]
  p := by rw [getD_set_ne _ _ _ _ _ (by omega)]; exact h.p
  b := by rw [getD_set_ne _ _ _ _ _ (by omega)]; exact h.b
  v := by rw [getD_set_ne _ _ _ _ _ (by omega)]; exact h.v

theorem asTy_u32 (cs : Bool) {x : Nat} (h : x < 4294967296) : asTy cs (.int .u32) (.int x) = .ok (.int x) := by
  simp only [asTy]
  rw [wrap_u32 _ _ h]

theorem wp_vFlag (env : Env) (fuel d : Nat) {s : Sched} {m0 : Blk → Option (List Val)} {V P B : Blk} {fr : List Val} {heap : Heap} {stk : Nat} {v : VRes}
    (hown : V.own = true) (hf : VFr V P B fr) (flag : VRes) {Q : Ctl → St → Prop}
    (hq : Q (.next .run) ⟨fr, heap, upd m0 V (some [.int (v ||| flag).toNat]), stk⟩) :
    WP (exec (cx env fuel d) (vFlag flag.toNat) .run) s ⟨fr, heap, upd m0 V (some [.int v.toNat]), stk⟩ Q := by
  unfold vFlag
  xs []
  have hv := v.isLt
  have hfl := flag.isLt
  rw [hf.v]
  refine wp_loadV (c := cx env fuel d) (l := [.int v.toNat]) (w := .int v.toNat) (by exact (cont_own hown).trans (upd_same ..)) (by omega) (by rfl)
    (asTy_u32 _ hv) ?_
  xs []
  refine wp_storeV hown (l := [.int v.toNat]) (w := .int (v ||| flag).toNat) (by exact upd_same ..) (by omega) (by simp) ?_ ?_
  · rw [BitVec.toNat_or]
    rfl
  rw [upd_upd]
  exact hq

/-- The cells of a claim of the array. -/
theorem claim_cells {mem : Blk → Option (List Val)} {A : Blk} {cs : List Claim} (h : ClaimsAt mem (.ptr (some (A, 0))) (some cs)) {i : Nat} {c : Claim}
    (hi : cs[i]? = some c) : ∃ l, cont globs mem A = some l ∧ 5 * i + 5 ≤ l.length ∧ ClaimCells mem l (5 * i) c := by
  obtain ⟨b, o, l, he, hc, hl, hcl⟩ := h
  simp only [Val.ptr.injEq, Option.some.injEq, Prod.mk.injEq] at he
  obtain ⟨rfl, ho⟩ := he
  obtain rfl : o = 0 := by omega
  obtain ⟨hlt, -⟩ := List.getElem?_eq_some_iff.mp hi
  refine ⟨l, hc, by omega, ?_⟩
  have := hcl i c hi
  rwa [Nat.zero_add] at this

theorem getClaim_lt {cs : List Claim} {key : Option Bytes} {k i : Nat} (h : getClaim (some cs) cs.length key k = .ok (some i)) : i < cs.length := by
  unfold getClaim at h
  cases key with
  | none => cases h
  | some key =>
    simp only at h
    split at h
    · cases h
    · rename_i hne
      clear hne
      induction cs generalizing i with
      | nil => cases h
      | cons c cs ih =>
        simp only [List.length_cons, getClaimLoop] at h
        obtain ⟨mem, -, h⟩ := res_inv h
        obtain ⟨r, -, h⟩ := res_inv h
        split at h
        · cases h; simp
        · obtain ⟨o, ho, h⟩ := res_inv h
          cases o with
          | none => cases h
          | some j =>
            cases h
            have := ih ho
            simp
            omega

/-- The claim that is looked up. -/
theorem wp_vGet (env : Env) (fuel d : Nat) {s : Sched} {m0 : Blk → Option (List Val)} {V P B A : Blk} {q : DecParams} {w : DecPtrs} {cs : List Claim}
    {fr : List Val} {heap : Heap} {stk : Nat} {x : Val} (hc : VCtx m0 stk heap V P B A q w cs) (hf : VFr V P B fr) {i : Nat} {name : String}
    {o : Option Claim} (hr : lookup cs name = .ok o) (hfu : cs.length < fuel) {Q : Ctl → St → Prop}
    (hn : o = none → Q (.next .run) ⟨fr.set i (.ptr none), heap, upd m0 V (some [x]), stk⟩)
    (hs : ∀ c j, o = some c → cs[j]? = some c → Q (.next .run) ⟨fr.set i (.ptr (some (A, ((5 * j : Nat) : Int)))), heap, upd m0 V (some [x]), stk⟩) :
    WP (exec (cx env fuel (d + 1)) (vGet i (str name)) .run) s ⟨fr, heap, upd m0 V (some [x]), stk⟩ Q := by
  unfold vGet
  obtain ⟨r, hB⟩ := hc.buf x
  unfold lookup at hr
  obtain ⟨j, hg, hr2⟩ := res_inv hr
  xs []
  rw [hf.b]
  refine wp_loadV (c := cx env fuel (d + 1)) (by exact hB) (by omega) (by rfl) (by rfl) ?_
  xs []
  rw [hf.b]
  refine wp_ld (c := cx env fuel (d + 1)) (v := .int cs.length) (by exact hB) (by omega) (by rfl) (asTy_u64 _ hc.fits) ?_
  xs []
  rw [cx_fun _ _ _ (fn := l8w8jwt_get_claim) rfl]
  refine (wp_of_eq (get_claim_text env fuel d s _ (hc.wf x fr) _ _ (some cs) (some (str name ++ [0])) cs.length 3 (hc.arr x) (pts_lit _ _) (by simp) j hg hfu)).mpr ?_
  cases j with
  | none =>
    cases hr2
    exact hn rfl
  | some j =>
    have hlt := getClaim_lt hg
    cases hr2
    have he : (0 : Int) + 5 * (j : Int) = ((5 * j : Nat) : Int) := by omega
    simp only [claimPtr, he]
    exact hs cs[j] j (by simp [hlt]) (by simp [hlt])

theorem wp_strncmp0 (env : Env) (fuel d : Nat) {p q : Val} {n : Nat} {s : Sched} {st : St} {m1 m2 : Bytes} {r : Int} {Q : Val → St → Prop}
    (h1 : Pts globs st.mem p (some m1)) (h2 : Pts globs st.mem q (some m2)) (hr : strncmp m1 m2 n = .ok r) (hq : Q (.int r) st) :
    WP ((cx env fuel d).call "strncmp" [p, q, .int n]) s st Q := by
  by_cases hn : n = 0
  · subst hn
    rw [cx_lib _ _ _ rfl]
    refine ⟨_, _, ?_, hq⟩
    have : r = 0 := by
      cases m1 <;> cases m2 <;> cases hr <;> rfl
    subst this
    rfl
  · exact wp_strncmp env fuel d h1 h2 hn hr hq

theorem wp_strtoll (env : Env) (fuel d : Nat) {p : Val} {s : Sched} {st : St} {m : Bytes} {r : Int} {Q : Val → St → Prop}
    (h1 : Pts globs st.mem p (some m)) (hr : strtoll m = .ok r) (hq : Q (.int r) st) :
    WP ((cx env fuel d).call "strtoll" [p, .ptr none, .int 10]) s st Q := by
  obtain ⟨b1, o1, c1, rfl, h1, ho1, hl1⟩ := h1
  rw [cx_lib _ _ _ rfl]
  refine ⟨_, _, ?_, hq⟩
  show (do
      let b ← bytesAt (lctx env) (.ptr (some (b1, (o1 : Int))))
      let r ← X.res (strtoll b)
      pure (.int r) : X Val) s st = _
  have e1 : bytesAt (lctx env) (.ptr (some (b1, (o1 : Int)))) s st = .ok (m, st) := by
    simp only [bytesAt, X.bind_apply, obj_cont (c := lctx env) h1]
    rw [if_neg (by omega), X.pure_apply, ← hl1]
    rfl
  simp only [X.bind_apply, e1, hr, X.res_ok, X.pure_apply]

/-- Reading a member of a claim. -/
theorem wp_ldAt {c : Ctx} {s : Sched} {st : St} {b : Blk} {l : List Val} {o k : Nat} {t : STy} {v w : Val} {Q : Val → St → Prop}
    (h : cont c.glob st.mem b = some l) (hv : l[o + k]? = some v) (hw : asTy c.cs t v = .ok w) (hq : Q w st) :
    WP (paddV c (.ptr (some (b, (o : Int)))) (k : Int)) s st (fun x st1 => WP (loadV c t x) s st1 Q) := by
  obtain ⟨hlt, -⟩ := List.getElem?_eq_some_iff.mp hv
  refine wp_paddV h (by omega) (by omega) ?_
  refine wp_loadV h (by omega) ?_ hw hq
  rw [← hv]
  congr 1

theorem wp_vLen (env : Env) (fuel d : Nat) {s : Sched} {mem : Blk → Option (List Val)} {V P B : Blk} {q : DecParams} {w : DecPtrs}
    {fr : List Val} {heap : Heap} {stk : Nat} (hP : cont (cx env fuel d).glob mem P = some (decCells q w)) (hf : VFr V P B fr) {off : Nat}
    {pe : Val} {e : Bytes} {n n' : Nat} (hpe : (decCells q w)[off]? = some pe)
    (hle : (decCells q w)[off + 1]? = some (.int n)) (he : Pts globs mem (nul pe) (some e)) (hn : n < 18446744073709551616)
    (hr : (if n ≠ 0 then .ok n else strlen e : Res Nat) = .ok n') {Q : Ctl → St → Prop}
    (hq : Q (.next .run) ⟨fr.set 3 (.int n'), heap, mem, stk⟩) :
    WP (exec (cx env fuel d) (vLen off) .run) s ⟨fr, heap, mem, stk⟩ Q := by
  have h1 : ((off : Int) + 1).toNat = off + 1 := by omega
  unfold vLen
  xs []
  rw [hf.p]
  refine wp_ld (c := cx env fuel d) (v := .int n) (by exact hP) (by omega) (by rw [h1]; exact hle) (asTy_u64 _ hn) ?_
  by_cases h0 : n = 0
  · subst h0
    xs []
    rw [hf.p]
    refine wp_ld (c := cx env fuel d) (v := pe) (by exact hP) (by omega) (by simpa using hpe) (asTy_nul _ he) ?_
    xs []
    exact wp_strlen env fuel d (by exact he) (by simpa using hr) hq
  · rw [if_pos h0] at hr
    cases hr
    have h0' : ¬ ((n : Nat) : Int) = 0 := by omega
    xs [h0']
    rw [hf.p]
    refine wp_ld (c := cx env fuel d) (v := .int n) (by exact hP) (by omega) (by rw [h1]; exact hle) (asTy_u64 _ hn) ?_
    xs []
    exact hq

theorem wp_vStr (env : Env) (fuel d : Nat) {s : Sched} {m0 : Blk → Option (List Val)} {V P B A : Blk} {q : DecParams} {w : DecPtrs} {cs : List Claim}
    {fr : List Val} {heap : Heap} {stk : Nat} (hc : VCtx m0 stk heap V P B A q w cs) (hf : VFr V P B fr) {i : Nat} (hi : 4 ≤ i ∧ i < 13)
    {off : Nat} {name : String} {flag v v' : VRes} {pe : Val} {e : Option Bytes} {n : Nat} (hpe : (decCells q w)[off]? = some pe)
    (hle : (decCells q w)[off + 1]? = some (.int n)) (he : ∀ x, Pts globs (upd m0 V (some [x])) (nul pe) e) (hn : n < 18446744073709551616)
    (hr : checkStr cs name e n flag v = .ok v') (hfu : cs.length < fuel) {Q : Ctl → St → Prop}
    (hq : ∀ fr', VFr V P B fr' → Q (.next .run) ⟨fr', heap, upd m0 V (some [.int v'.toNat]), stk⟩) :
    WP (exec (cx env fuel (d + 1)) (vStr i off (str name) flag.toNat) .run) s ⟨fr, heap, upd m0 V (some [.int v.toNat]), stk⟩ Q := by
  unfold vStr
  have hP : cont (cx env fuel (d + 1)).glob (upd m0 V (some [.int v.toNat])) P = some (decCells q w) := (cont_own (hc.par .undef).own).trans (hc.par _).cells
  xs []
  rw [hf.p]
  refine wp_ld (c := cx env fuel (d + 1)) (v := pe) (by exact hP) (by omega) (by simpa using hpe) (asTy_nul _ (he .undef)) ?_
  cases e with
  | none =>
    rw [show nul pe = .ptr none from he .undef]
    xs []
    cases hr
    exact hq _ hf
  | some e =>
  have hpp : ∃ a, nul pe = .ptr (some a) := by
    obtain ⟨b, o, l, h, -⟩ := he .undef
    exact ⟨_, h⟩
  obtain ⟨a, hpa⟩ := hpp
  rw [hpa]
  unfold checkStr at hr
  obtain ⟨o, hlo, hr2⟩ := res_inv hr
  obtain ⟨n', hn', hr3⟩ := res_inv hr2
  xs []
  refine wp_vGet env fuel d hc hf (i := i) hlo hfu ?_ ?_
  · rintro rfl
    cases hr3
    xs []
    have hf2 := hf.set (i := i) (by omega) (.ptr none)
    refine wp_vLen env fuel (d + 1) hP hf2 hpe hle (he _) hn hn' ?_
    have hf3 := hf2.set (i := 3) (by omega) (.int n')
    have hg : ((fr.set i (.ptr none)).set 3 (.int n')).getD i .undef = .ptr none := by
      rw [getD_set_ne _ _ _ _ _ (by omega), getD_set_same _ _ _ _ (by rw [hf.len]; omega)]
    xs [hg]
    refine wp_vFlag env fuel (d + 1) hc.own hf3 flag ?_
    exact hq _ hf3
  · intro c j ho hj
    subst ho
    obtain ⟨l, hA, -, kv, vv, -, -, hvv, hvl, -, -, hpv, -, hvlt, -⟩ := claim_cells (hc.arr (.int v.toNat)) hj
    xs []
    have hf2 := hf.set (i := i) (by omega) (.ptr (some (A, ((5 * j : Nat) : Int))))
    refine wp_vLen env fuel (d + 1) hP hf2 hpe hle (he _) hn hn' ?_
    have hf3 := hf2.set (i := 3) (by omega) (.int n')
    have hg : ((fr.set i (.ptr (some (A, ((5 * j : Nat) : Int))))).set 3 (.int n')).getD i .undef = .ptr (some (A, ((5 * j : Nat) : Int))) := by
      rw [getD_set_ne _ _ _ _ _ (by omega), getD_set_same _ _ _ _ (by rw [hf.len]; omega)]
    have hg3 : ((fr.set i (.ptr (some (A, ((5 * j : Nat) : Int))))).set 3 (.int n')).getD 3 .undef = .int n' :=
      getD_set_same _ _ _ _ (by simp [hf.len])
    obtain ⟨fr3, hfr3⟩ : ∃ fr3, fr3 = (fr.set i (.ptr (some (A, ((5 * j : Nat) : Int))))).set 3 (.int n') := ⟨_, rfl⟩
    rw [← hfr3] at hf3 hg hg3 ⊢
    xs [hg]
    refine wp_ldAt (c := cx env fuel (d + 1)) (k := 3) (by exact hA) (by exact hvl) (asTy_u64 _ hvlt) ?_
    simp only at hr3
    xs [hg3]
    by_cases hne : c.valueLength = n'
    · rw [if_neg (by simpa using hne)] at hr3
      obtain ⟨mv, hmv, hr4⟩ := res_inv hr3
      obtain ⟨r, hcmp, hr5⟩ := res_inv hr4
      cases hr5
      have hpv' : Pts globs (upd m0 V (some [.int v.toNat])) vv (some mv) := by
        cases hb : c.value.bytes with
        | none => rw [hb] at hmv; cases hmv
        | some x => rw [hb] at hmv; cases hmv; rw [← hb]; exact hpv
      have hne' : ((c.valueLength : Nat) : Int) = n' := by omega
      xs [hne']
      rw [hg]
      refine wp_ldAt (c := cx env fuel (d + 1)) (k := 2) (by exact hA) (by exact hvv) (asTy_pts _ hpv') ?_
      xs []
      rw [hf3.p]
      refine wp_ld (c := cx env fuel (d + 1)) (by exact hP) (by omega) (by simpa using hpe) (asTy_nul _ (he .undef)) ?_
      xs [hg3]
      refine wp_strncmp0 env fuel _ (by exact hpv') (by exact he _) hcmp ?_
      by_cases h0 : r = 0
      · subst h0
        xs []
        exact hq _ hf3
      · xs [h0]
        refine wp_vFlag env fuel (d + 1) hc.own hf3 flag ?_
        have := hq _ hf3
        rwa [if_pos h0] at this
    · rw [if_pos (by simpa using hne)] at hr3
      cases hr3
      have hne' : ¬ ((c.valueLength : Nat) : Int) = n' := by omega
      xs [hne']
      refine wp_vFlag env fuel (d + 1) hc.own hf3 flag ?_
      exact hq _ hf3

theorem wp_vTime (env : Env) (fuel d : Nat) {s : Sched} {m0 : Blk → Option (List Val)} {V P B A : Blk} {q : DecParams} {w : DecPtrs} {cs : List Claim}
    {fr : List Val} {heap : Heap} {stk : Nat} (hc : VCtx m0 stk heap V P B A q w cs) (hf : VFr V P B fr) {i : Nat} (hi : 9 ≤ i ∧ i < 13)
    (h8 : fr.getD 8 .undef = .int env.now) {off tol : Nat} {name : String} {flag v v' : VRes} {en : Int} {on : Bool} {t : UInt8}
    (hen : (decCells q w)[off]? = some (.int en)) (hb : (-2147483648 ≤ en ∧ en < 2147483648) ∧ on = decide (en ≠ 0))
    (htol : (decCells q w)[tol]? = some (.int t.toNat)) (late : Bool)
    (hr : checkTime env.now cs name on t late flag v = .ok v') (hfu : cs.length < fuel) {Q : Ctl → St → Prop}
    (hq : ∀ fr', VFr V P B fr' → fr'.getD 8 .undef = .int env.now → Q (.next .run) ⟨fr', heap, upd m0 V (some [.int v'.toNat]), stk⟩) :
    WP (exec (cx env fuel (d + 1)) (vTime i off tol (str name) (if late then .gt else .lt) (if late then .sub else .add) flag.toNat) .run) s
      ⟨fr, heap, upd m0 V (some [.int v.toNat]), stk⟩ Q := by
  unfold vTime
  have hP : cont (cx env fuel (d + 1)).glob (upd m0 V (some [.int v.toNat])) P = some (decCells q w) := (cont_own (hc.par .undef).own).trans (hc.par _).cells
  xs []
  rw [hf.p]
  refine wp_ld (c := cx env fuel (d + 1)) (v := .int en) (by exact hP) (by omega) (by simpa using hen) (asTy_i32 _ hb.1.1 hb.1.2) ?_
  by_cases h0 : en = 0
  · subst h0
    obtain rfl : on = false := by simpa using hb.2
    xs []
    cases hr
    exact hq _ hf h8
  obtain rfl : on = true := by simpa [h0] using hb.2
  unfold checkTime at hr
  simp only [Bool.not_true, Bool.false_eq_true, if_false] at hr
  obtain ⟨o, hlo, hr2⟩ := res_inv hr
  xs [h0]
  refine wp_vGet env fuel d hc hf (i := i) hlo hfu ?_ ?_
  · rintro rfl
    cases hr2
    have hf2 := hf.set (i := i) (by omega) (.ptr none)
    have hg : (fr.set i (.ptr none)).getD i .undef = .ptr none := getD_set_same _ _ _ _ (by rw [hf.len]; omega)
    xs [hg]
    refine wp_vFlag env fuel (d + 1) hc.own hf2 flag ?_
    exact hq _ hf2 (by rw [getD_set_ne _ _ _ _ _ (by omega)]; exact h8)
  · intro c j ho hj
    subst ho
    obtain ⟨l, hA, -, kv, vv, -, -, hvv, hvl, -, -, hpv, -, hvlt, -⟩ := claim_cells (hc.arr (.int v.toNat)) hj
    have hf2 := hf.set (i := i) (by omega) (.ptr (some (A, ((5 * j : Nat) : Int))))
    have hg : (fr.set i (.ptr (some (A, ((5 * j : Nat) : Int))))).getD i .undef = .ptr (some (A, ((5 * j : Nat) : Int))) :=
      getD_set_same _ _ _ _ (by rw [hf.len]; omega)
    have h8' : (fr.set i (.ptr (some (A, ((5 * j : Nat) : Int))))).getD 8 .undef = .int env.now := by
      rw [getD_set_ne _ _ _ _ _ (by omega)]; exact h8
    obtain ⟨fr3, hfr3⟩ : ∃ fr3, fr3 = fr.set i (.ptr (some (A, ((5 * j : Nat) : Int)))) := ⟨_, rfl⟩
    rw [← hfr3] at hf2 hg h8' ⊢
    simp only at hr2
    obtain ⟨tt, htt, hr3⟩ := res_inv hr2
    obtain ⟨mv, hmv, hr4⟩ := res_inv hr3
    obtain ⟨x, hx, hr5⟩ := res_inv hr4
    have hpv' : Pts globs (upd m0 V (some [.int v.toNat])) vv (some mv) := by
      cases hb : c.value.bytes with
      | none => rw [hb] at hmv; cases hmv
      | some x => rw [hb] at hmv; cases hmv; rw [← hb]; exact hpv
    have htt' : (if late = true then env.now - (t.toNat : Int) else env.now + (t.toNat : Int)) = tt ∧ -9223372036854775808 ≤ tt ∧ tt < 9223372036854775808 := by
      unfold timeArith at htt
      generalize (if late = true then env.now - (t.toNat : Int) else env.now + (t.toNat : Int)) = z at htt ⊢
      split at htt
      · rename_i hh
        simp only [llongMin, llongMax] at hh
        cases htt
        exact ⟨rfl, by omega, by omega⟩
      · cases htt
    have ht8 := t.toNat_lt
    xs [hg, h8']
    rw [hf2.p]
    refine wp_ld (c := cx env fuel (d + 1)) (v := .int t.toNat) (by exact hP) (by omega) (by simpa using htol) (asTy_u8 _ ht8) ?_
    cases late with
    | true =>
      simp only [reduceIte] at hr5 htt' ⊢
      obtain ⟨rfl, hlo, hhi⟩ := htt'
      rw [h8']
      xs []
      rw [hg]
      refine wp_ldAt (c := cx env fuel (d + 1)) (k := 2) (by exact hA) (by exact hvv) (asTy_pts _ hpv') ?_
      xs []
      refine wp_strtoll env fuel _ (by exact hpv') hx ?_
      by_cases hcmp : x < env.now - (t.toNat : Int)
      · rw [if_pos hcmp] at hr5
        cases hr5
        xs [hcmp]
        exact wp_vFlag env fuel (d + 1) hc.own hf2 flag (hq _ hf2 h8')
      · rw [if_neg hcmp] at hr5
        cases hr5
        xs [hcmp]
        exact hq _ hf2 h8'
    | false =>
      simp only [Bool.false_eq_true, reduceIte] at hr5 htt' ⊢
      obtain ⟨rfl, hlo, hhi⟩ := htt'
      rw [h8']
      xs []
      rw [hg]
      refine wp_ldAt (c := cx env fuel (d + 1)) (k := 2) (by exact hA) (by exact hvv) (asTy_pts _ hpv') ?_
      xs []
      refine wp_strtoll env fuel _ (by exact hpv') hx ?_
      by_cases hcmp : env.now + (t.toNat : Int) < x
      · rw [if_pos hcmp] at hr5
        cases hr5
        xs [hcmp]
        exact wp_vFlag env fuel (d + 1) hc.own hf2 flag (hq _ hf2 h8')
      · rw [if_neg hcmp] at hr5
        cases hr5
        xs [hcmp]
        exact hq _ hf2 h8'

theorem wp_vTyp (env : Env) (fuel d : Nat) {s : Sched} {m0 : Blk → Option (List Val)} {V P B A : Blk} {q : DecParams} {w : DecPtrs} {cs : List Claim}
    {fr : List Val} {heap : Heap} {stk : Nat} (hc : VCtx m0 stk heap V P B A q w cs) (hf : VFr V P B fr) {v v' : VRes}
    (hr : checkTyp env cs q.validateTyp q.validateTypLength v = .ok v') (hfu : cs.length < fuel) (hfn : q.validateTypLength < fuel) {Q : Ctl → St → Prop}
    (hq : ∀ fr', Q (.next .run) ⟨fr', heap, upd m0 V (some [.int v'.toNat]), stk⟩) :
    WP (exec (cx env fuel (d + 1)) vTyp .run) s ⟨fr, heap, upd m0 V (some [.int v.toNat]), stk⟩ Q := by
  unfold vTyp
  have hP : cont (cx env fuel (d + 1)).glob (upd m0 V (some [.int v.toNat])) P = some (decCells q w) := (cont_own (hc.par .undef).own).trans (hc.par _).cells
  have hty := (hc.par (.int v.toNat)).typ
  have hlt := (hc.par .undef).typLength
  xs []
  rw [hf.p]
  refine wp_ld (c := cx env fuel (d + 1)) (v := w.typ) (by exact hP) (by omega) (by rfl) (asTy_nul _ hty) ?_
  cases he : q.validateTyp with
  | none =>
    rw [he] at hty hr
    have hw : nul w.typ = .ptr none := hty
    rw [hw]
    xs []
    cases hr
    exact hq _
  | some e =>
  rw [he] at hty hr
  have hpp : ∃ a, nul w.typ = .ptr (some a) := by
    obtain ⟨b, o, l, h, -⟩ := hty
    exact ⟨_, h⟩
  obtain ⟨a, hwa⟩ := hpp
  unfold checkTyp at hr
  obtain ⟨o, hlo, hr2⟩ := res_inv hr
  rw [hwa]
  xs []
  refine wp_vGet env fuel d hc hf (i := 12) hlo hfu ?_ ?_
  · rintro rfl
    cases hr2
    have hf2 := hf.set (i := 12) (by omega) (.ptr none)
    have hg : (fr.set 12 (.ptr none)).getD 12 .undef = .ptr none := getD_set_same _ _ _ _ (by rw [hf.len]; omega)
    xs [hg]
    exact wp_vFlag env fuel (d + 1) hc.own hf2 L8W8JWT_TYP_FAILURE (hq _)
  · intro c j ho hj
    subst ho
    obtain ⟨l, hA, -, kv, vv, -, -, hvv, hvl, -, -, hpv, -, hvlt, -⟩ := claim_cells (hc.arr (.int v.toNat)) hj
    have hf2 := hf.set (i := 12) (by omega) (.ptr (some (A, ((5 * j : Nat) : Int))))
    have hg : (fr.set 12 (.ptr (some (A, ((5 * j : Nat) : Int))))).getD 12 .undef = .ptr (some (A, ((5 * j : Nat) : Int))) :=
      getD_set_same _ _ _ _ (by rw [hf.len]; omega)
    obtain ⟨fr3, hfr3⟩ : ∃ fr3, fr3 = fr.set 12 (.ptr (some (A, ((5 * j : Nat) : Int)))) := ⟨_, rfl⟩
    rw [← hfr3] at hf2 hg ⊢
    simp only at hr2
    obtain ⟨r, hcmp, hr3⟩ := res_inv hr2
    cases hr3
    xs [hg]
    refine wp_ldAt (c := cx env fuel (d + 1)) (k := 2) (by exact hA) (by exact hvv) (asTy_pts _ hpv) ?_
    xs []
    rw [hf2.p]
    refine wp_ld (c := cx env fuel (d + 1)) (v := w.typ) (by exact hP) (by omega) (by rfl) (asTy_nul _ hty) ?_
    xs []
    rw [hf2.p]
    refine wp_ld (c := cx env fuel (d + 1)) (v := .int q.validateTypLength) (by exact hP) (by omega) (by rfl) (asTy_u64 _ hlt) ?_
    xs []
    rw [cx_fun _ _ _ (fn := l8w8jwt_strncmpic) rfl]
    refine (wp_of_eq (strncmpic_text env fuel d s _ (hc.wf _ fr3) _ _ _ _ _ hpv hty hlt r hcmp hfn)).mpr ?_
    by_cases h0 : r = 0
    · subst h0
      xs []
      exact hq _
    · xs [h0]
      have := hq fr3
      rw [if_pos h0] at this
      exact wp_vFlag env fuel (d + 1) hc.own hf2 L8W8JWT_TYP_FAILURE this

/-- The text of `l8w8jwt_validate_claims` does what `validateClaims` says: only the variable with the result changes. -/
theorem wp_validate_claims (env : Env) (fuel d : Nat) {s : Sched} {m0 : Blk → Option (List Val)} {V P B A : Blk} {q : DecParams} {w : DecPtrs} {cs : List Claim}
    {fr : List Val} {heap : Heap} {stk : Nat} (hc : VCtx m0 stk heap V P B A q w cs) {v v' : VRes}
    (hr : validateClaims env q cs v = .ok v') (hfu : cs.length < fuel) (hfn : q.validateTypLength < fuel) {Q : Val → St → Prop}
    (hq : Q .undef ⟨fr, heap, upd m0 V (some [.int v'.toNat]), stk⟩) :
    WP ((cx env fuel (d + 2)).call "l8w8jwt_validate_claims" [.ptr (some (P, 0)), .ptr (some (B, 0)), .ptr (some (V, 0))]) s
      ⟨fr, heap, upd m0 V (some [.int v.toNat]), stk⟩ Q := by
  rw [cx_fun _ _ _ (fn := l8w8jwt_validate_claims) rfl]
  apply wp_runFun
  rw [vBody_eq]
  simp only [l8w8jwt_validate_claims, Nat.reduceSub, List.replicate, List.cons_append, List.nil_append]
  unfold validateClaims at hr
  obtain ⟨v1, h1, hr⟩ := res_inv hr
  obtain ⟨v2, h2, hr⟩ := res_inv hr
  obtain ⟨v3, h3, hr⟩ := res_inv hr
  obtain ⟨v4, h4, hr⟩ := res_inv hr
  obtain ⟨v5, h5, hr⟩ := res_inv hr
  obtain ⟨v6, h6, hr⟩ := res_inv hr
  obtain ⟨v7, h7, hr⟩ := res_inv hr
  have hp := hc.par .undef
  xs []
  refine wp_vStr env fuel d hc (off := 5) (flag := L8W8JWT_SUB_FAILURE) ⟨rfl, rfl, rfl, rfl⟩ (by omega) rfl rfl (fun x => (hc.par x).sub) hp.subLength h1 hfu ?_
  intro fr1 hf1
  xs []
  refine wp_vStr env fuel d hc (off := 7) (flag := L8W8JWT_AUD_FAILURE) hf1 (by omega) rfl rfl (fun x => (hc.par x).aud) hp.audLength h2 hfu ?_
  intro fr2 hf2
  xs []
  refine wp_vStr env fuel d hc (off := 3) (flag := L8W8JWT_ISS_FAILURE) hf2 (by omega) rfl rfl (fun x => (hc.par x).iss) hp.issLength h3 hfu ?_
  intro fr3 hf3
  xs []
  refine wp_vStr env fuel d hc (off := 9) (flag := L8W8JWT_JTI_FAILURE) hf3 (by omega) rfl rfl (fun x => (hc.par x).jti) hp.jtiLength h4 hfu ?_
  intro fr4 hf4
  xs []
  rw [cx_lib _ _ _ rfl]
  refine ⟨_, _, rfl, ?_⟩
  have hf5 := hf4.set (i := 8) (by omega) (.int env.now)
  have h8 : (fr4.set 8 (.int env.now)).getD 8 .undef = .int env.now := getD_set_same _ _ _ _ (by rw [hf4.len]; omega)
  xs []
  refine wp_vTime env fuel d hc (off := 11) (tol := 14) (flag := L8W8JWT_EXP_FAILURE) hf5 (by omega) h8 rfl hp.exp rfl true h5 hfu ?_
  intro fr6 hf6 h8
  xs []
  refine wp_vTime env fuel d hc (off := 12) (tol := 15) (flag := L8W8JWT_NBF_FAILURE) hf6 (by omega) h8 rfl hp.nbf rfl false h6 hfu ?_
  intro fr7 hf7 h8
  xs []
  refine wp_vTime env fuel d hc (off := 13) (tol := 16) (flag := L8W8JWT_IAT_FAILURE) hf7 (by omega) h8 rfl hp.iat rfl false h7 hfu ?_
  intro fr8 hf8 h8
  xs []
  refine wp_vTyp env fuel d hc hf8 hr hfu hfn ?_
  intro fr9
  xs []
  have hd := dropStack_wf (hc.wf (.int v'.toNat) fr9)
  simp only at hd
  rw [hd]
  exact hq

end L8w8jwt.C
