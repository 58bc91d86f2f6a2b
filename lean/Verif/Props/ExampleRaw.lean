import Verif.Props.ExampleTokens
import Verif.C.KeygenRun
import Verif.Props.TextFaults
/-!
# C88: the program examples/rs256/decode.c

It is as the other programs examples/*/decode.c (C85), but goes on with `l8w8jwt_decode_raw_no_validation` and `l8w8jwt_decode_raw`, and
prints header and payload.
-/

namespace L8w8jwt.C

open Spec

/-! ## The text -/

/-- The declarations of the out variables. -/
def rawDecls (R : Stmt) : Stmt :=
  .seq (.declMem 3 1 [] .undef) (.seq (.exp (.store .ptr (.loc 3) .null))
  (.seq (.declMem 4 1 [] .undef) (.seq (.exp (.store .ptr (.loc 4) .null))
  (.seq (.declMem 5 1 [] .undef) (.seq (.exp (.store .ptr (.loc 5) .null))
  (.seq (.declMem 6 1 [] .undef) (.seq (.exp (.store (.int .u64) (.loc 6) (.num 0)))
  (.seq (.declMem 7 1 [] .undef) (.seq (.exp (.store (.int .u64) (.loc 7) (.num 0)))
  (.seq (.declMem 8 1 [] .undef) (.seq (.exp (.store (.int .u64) (.loc 8) (.num 0))) R)))))))))))

/-- The three blocks are given back, and the lengths are set to 0. -/
def rawFrees (R : Stmt) : Stmt :=
  .seq (.exp (.call "l8w8jwt_free" (.cons (.load .ptr (.loc 3)) .nil)))
  (.seq (.exp (.call "l8w8jwt_free" (.cons (.load .ptr (.loc 4)) .nil)))
  (.seq (.exp (.call "l8w8jwt_free" (.cons (.load .ptr (.loc 5)) .nil)))
  (.seq (.exp (.store (.int .u64) (.loc 6) (.num 0)))
  (.seq (.exp (.store (.int .u64) (.loc 7) (.num 0)))
  (.seq (.exp (.store (.int .u64) (.loc 8) (.num 0))) R)))))

/-- The out arguments. -/
def rawOuts : Args := .cons (.loc 3) (.cons (.loc 6) (.cons (.loc 4) (.cons (.loc 7) (.cons (.loc 5) (.cons (.loc 8) .nil)))))

def nvFormat : Bytes := str "\nl8w8jwt_decode_raw_no_validation_rs256 function returned %s (code %d).\n\nValidation result: \nN.A.\n\nHeader: %s\n\nPayload: %s\n"

def rawFormat : Bytes := str "\nl8w8jwt_decode_raw_rs256 function returned %s (code %d).\n\nValidation result: \n%d\n\nHeader: %s\n\nPayload: %s\n"

/-- `r == L8W8JWT_SUCCESS ? "successfully" : ""` -/
def rawSuccess : Expr := .cond (.cmp .eq (.loc 2) (.num 0)) (.str (str "successfully")) (.str [])

def nvPart (R : Stmt) : Stmt :=
  .seq (.exp (.set 2 (.call "l8w8jwt_decode_raw_no_validation" (.cons (.loc 0) rawOuts))))
  (.seq (.exp (.call "printf" (.cons (.str nvFormat) (.cons rawSuccess (.cons (.loc 2) (.cons (.load .ptr (.loc 3)) (.cons (.load .ptr (.loc 4)) .nil))))))) R)

def rawPart (R : Stmt) : Stmt :=
  .seq (.exp (.set 2 (.call "l8w8jwt_decode_raw" (.cons (.loc 0) (.cons (.loc 1) rawOuts)))))
  (.seq (.exp (.call "printf" (.cons (.str rawFormat) (.cons rawSuccess (.cons (.loc 2) (.cons (.load (.int .u32) (.loc 1)) (.cons (.load .ptr (.loc 3))
    (.cons (.load .ptr (.loc 4)) .nil)))))))) R)

/-- What follows the first message. -/
def rawTail : Stmt := rawDecls (nvPart (rawFrees (rawPart (rawFrees (.ret (.num 0))))))

theorem raw_prefix (alg now : Int) (key jwt fmt : Bytes) :
    symRun now 16 (Ex.decodeRawMain alg [] key jwt fmt).body ⟨List.replicate 9 .undef, [], []⟩ =
      some (decLay 7 alg key jwt false false, decTail fmt 2 .null .null rawTail) := by
  kernel_rfl

/-! ## The messages -/

/-- The end of both messages. -/
def rawShown (a b : Bytes) : Bytes := str "\n\nHeader: " ++ a ++ str "\n\nPayload: " ++ b ++ str "\n"

def successText (rc : Nat) : Bytes := if rc = 0 then str "successfully" else []

def nvMessage (rc : Nat) (a b : Bytes) : Bytes :=
  str "\nl8w8jwt_decode_raw_no_validation_rs256 function returned " ++ successText rc ++ str " (code " ++ printInt rc ++
    str ").\n\nValidation result: \nN.A." ++ rawShown a b

def rawMessage (rc : Nat) (v : BitVec 32) (a b : Bytes) : Bytes :=
  str "\nl8w8jwt_decode_raw_rs256 function returned " ++ successText rc ++ str " (code " ++ printInt rc ++
    str ").\n\nValidation result: \n" ++ printInt v.toInt ++ rawShown a b

section
variable {env : Env} {s : Sched} {st : St}

/-- A text of `%s`. -/
theorem fmt_text {r m t u : Bytes} {v : Val} {vs : List Val} (hb : Pts globs st.mem v (some m)) (hm : strlen m = .ok (cString t).length ∧ m.take (cString t).length = cString t)
    (e : formatted (lctx env) 0 r vs s st = .ok (u, st)) : formatted (lctx env) 0 (37 :: 115 :: r) (v :: vs) s st = .ok (cString t ++ u, st) := by
  rw [formatted_s hb hm.1, e, hm.2]

def shownFormat : Bytes := str "\n\nHeader: " ++ 37 :: 115 :: (str "\n\nPayload: " ++ 37 :: 115 :: (str "\n" ++ []))

/-- A C string with content `t`. -/
def TextAt (mem : Blk → Option (List Val)) (v : Val) (t : Bytes) : Prop :=
  ∃ m, Pts globs mem v (some m) ∧ strlen m = .ok (cString t).length ∧ m.take (cString t).length = cString t

theorem fmt_shown {v w : Val} {a b : Bytes} (ha : TextAt st.mem v a) (hb : TextAt st.mem w b) :
    formatted (lctx env) 0 shownFormat [v, w] s st = .ok (rawShown (cString a) (cString b), st) := by
  obtain ⟨m, h1, h2⟩ := ha
  obtain ⟨m', h3, h4⟩ := hb
  have e1 := fmt_text (env := env) (s := s) (r := str "\n" ++ []) (u := str "\n") (vs := []) h3 h4 rfl
  have e2 := formatted_lit (a := str "\n\nPayload: ") (by decide) e1
  have e3 := formatted_lit (a := str "\n\nHeader: ") (by decide) (fmt_text h1 h2 e2)
  rw [shownFormat, e3, rawShown]
  simp only [List.append_assoc]

/-- If one of them is NULL, that is undefined. -/
theorem fmt_shown_null {v w : Val} {a : Bytes} (h : v = .ptr none ∨ (TextAt st.mem v a ∧ w = .ptr none)) :
    formatted (lctx env) 0 shownFormat [v, w] s st = .error (.ub .nullDeref) := by
  rcases h with rfl | ⟨⟨m, h1, h2⟩, rfl⟩
  · exact formatted_lit_error (by decide) formatted_null
  · refine formatted_lit_error (by decide) ?_
    rw [formatted_s h1 h2.1, formatted_lit_error (by decide) formatted_null]

/-- The beginning of both messages. -/
theorem fmt_start {pre r u : Bytes} {rc : Nat} {vs : List Val} (hp : 37 ∉ pre) (hr : rc < 2147483648) (e : formatted (lctx env) 0 r vs s st = .ok (u, st)) :
    formatted (lctx env) 0 (pre ++ 37 :: 115 :: (str " (code " ++ 37 :: 100 :: r)) (litV (if (rc : Int) = 0 then str "successfully" else []) :: .int rc :: vs) s st =
      .ok (pre ++ successText rc ++ str " (code " ++ printInt rc ++ u, st) := by
  have hi : (if (rc : Int) = 0 then str "successfully" else []) = successText rc := by
    simp only [successText, Int.natCast_eq_zero]
  have hz : 0 ∉ successText rc := by unfold successText; split <;> decide
  have h1 : formatted (lctx env) 0 (37 :: 100 :: r) (.int rc :: vs) s st = .ok (printInt rc ++ u, st) := by
    rw [formatted_d, e, wrap_small hr]
  have h2 := formatted_lit (a := str " (code ") (by decide) h1
  have h3 : formatted (lctx env) 0 (37 :: 115 :: (str " (code " ++ 37 :: 100 :: r)) (litV (successText rc) :: .int rc :: vs) s st =
      .ok (successText rc ++ (str " (code " ++ (printInt rc ++ u)), st) := by
    rw [formatted_s (pts_lit _ _) (strlen_lit _ hz), h2, List.take_left]
  rw [hi, formatted_lit hp h3]
  simp only [List.append_assoc]

theorem fmt_start_error {pre r : Bytes} {rc : Nat} {vs : List Val} {x : Err} (hp : 37 ∉ pre) (e : formatted (lctx env) 0 r vs s st = .error x) :
    formatted (lctx env) 0 (pre ++ 37 :: 115 :: (str " (code " ++ 37 :: 100 :: r)) (litV (if (rc : Int) = 0 then str "successfully" else []) :: .int rc :: vs) s st =
      .error x := by
  have hi : (if (rc : Int) = 0 then str "successfully" else []) = successText rc := by
    simp only [successText, Int.natCast_eq_zero]
  have hz : 0 ∉ successText rc := by unfold successText; split <;> decide
  have h1 : formatted (lctx env) 0 (37 :: 100 :: r) (.int rc :: vs) s st = .error x := by
    rw [formatted_d, e]
  have h2 := formatted_lit_error (a := str " (code ") (by decide) h1
  rw [hi]
  refine formatted_lit_error hp ?_
  rw [formatted_s (pts_lit _ _) (strlen_lit _ hz), h2]

theorem nvFormat_eq : nvFormat = str "\nl8w8jwt_decode_raw_no_validation_rs256 function returned " ++ 37 :: 115 :: (str " (code " ++ 37 :: 100 ::
    (str ").\n\nValidation result: \nN.A." ++ shownFormat)) := by decide +kernel

theorem rawFormat_eq : rawFormat = str "\nl8w8jwt_decode_raw_rs256 function returned " ++ 37 :: 115 :: (str " (code " ++ 37 :: 100 ::
    (str ").\n\nValidation result: \n" ++ 37 :: 100 :: shownFormat)) := by decide

theorem printed_nv {v w : Val} {a b out : Bytes} {rc : Nat} (ha : TextAt st.mem v a) (hb : TextAt st.mem w b) (hr : rc < 2147483648)
    (ho : st.mem (.ext 0) = some (cells out)) :
    xPrintf (lctx env) [litV nvFormat, litV (if (rc : Int) = 0 then str "successfully" else []), .int rc, v, w] s st =
      .ok (.undef, { st with mem := upd st.mem (.ext 0) (some (cells (out ++ nvMessage rc (cString a) (cString b)))) }) := by
  refine printf_run (by decide +kernel) ho ?_
  rw [nvFormat_eq, fmt_start (by decide) hr (formatted_lit (by decide) (fmt_shown ha hb)), nvMessage]
  simp only [List.append_assoc]

theorem printed_raw {v w : Val} {a b out : Bytes} {rc : Nat} {x : BitVec 32} (ha : TextAt st.mem v a) (hb : TextAt st.mem w b) (hr : rc < 2147483648)
    (ho : st.mem (.ext 0) = some (cells out)) :
    xPrintf (lctx env) [litV rawFormat, litV (if (rc : Int) = 0 then str "successfully" else []), .int rc, .int x.toNat, v, w] s st =
      .ok (.undef, { st with mem := upd st.mem (.ext 0) (some (cells (out ++ rawMessage rc x (cString a) (cString b)))) }) := by
  refine printf_run (by decide +kernel) ho ?_
  have h1 : formatted (lctx env) 0 (37 :: 100 :: shownFormat) [.int x.toNat, v, w] s st = .ok (printInt x.toInt ++ rawShown (cString a) (cString b), st) := by
    rw [formatted_d, fmt_shown ha hb, wrap_vres]
  rw [rawFormat_eq, fmt_start (by decide) hr (formatted_lit (by decide) h1), rawMessage]
  simp only [List.append_assoc]

theorem printed_nv_null {v w : Val} {a : Bytes} {rc : Nat} (h : v = .ptr none ∨ (TextAt st.mem v a ∧ w = .ptr none)) :
    xPrintf (lctx env) [litV nvFormat, litV (if (rc : Int) = 0 then str "successfully" else []), .int rc, v, w] s st = .error (.ub .nullDeref) := by
  refine printf_error (by decide +kernel) ?_
  rw [nvFormat_eq]
  exact fmt_start_error (by decide) (formatted_lit_error (by decide) (fmt_shown_null h))

end

/-! ## The state between the calls -/

/-- The local variables. -/
def rawVars (r : Val) : List Val :=
  [.ptr (some (.stack 0, 0)), .ptr (some (.stack 1, 0)), r, .ptr (some (.stack 2, 0)), .ptr (some (.stack 3, 0)), .ptr (some (.stack 4, 0)),
   .ptr (some (.stack 5, 0)), .ptr (some (.stack 6, 0)), .ptr (some (.stack 7, 0))]

/-- The state between the calls: the parameters are there, there is a cell for each out argument, and `out` has been printed. -/
structure Going (params : List Val) (r : Val) (out : Bytes) (st : St) : Prop where
  fr : st.fr = rawVars r
  stk : st.stk = 8
  wf : Wf st
  heap : HeapWf st.heap
  params : st.mem (.stack 0) = some params
  cell : ∀ i, 1 ≤ i → i < 8 → ∃ v, st.mem (.stack i) = some [v]
  out : st.mem (.ext 0) = some (cells out)

section
variable {c : Ctx} {env : Env} {fuel : Nat} {s : Sched} {ps : List Val} {r : Val} {out : Bytes} {st : St}

theorem exec_decl {t : STy} {e : Expr} {v w : Val} {fr : List Val} {heap : Heap} {mem : Blk → Option (List Val)} {k i : Nat} {R : Stmt} (hi : i < fr.length)
    (he : ∀ st, eval c e s st = .ok (v, st)) (hw : toCell t v = .ok w) :
    exec c (.seq (.declMem i 1 [] .undef) (.seq (.exp (.store t (.loc i) e)) R)) .run s ⟨fr, heap, mem, k⟩ =
      exec c R .run s ⟨fr.set i (.ptr (some (.stack k, 0))), heap, upd mem (.stack k) (some [w]), k + 1⟩ := by
  have h1 : exec c (.declMem i 1 [] .undef) .run s ⟨fr, heap, mem, k⟩ =
      .ok (.next .run, ⟨fr.set i (.ptr (some (.stack k, 0))), heap, upd mem (.stack k) (some [.undef]), k + 1⟩) := rfl
  rw [exec_seq h1, exec_exp (eval_store (B := .stack k) (o := 0) (l := [.undef]) (v := v) (w := w) (eval_loc (getD_set_same _ _ _ _ hi)) (he _) rfl (upd_same _ _ _) (by omega) (by simp) hw)]
  show exec c R .run s ⟨_, _, upd (upd mem (.stack k) (some [.undef])) (.stack k) (some [w]), _⟩ = _
  rw [upd_upd]

/-- The declarations. -/
theorem raw_decls {R : Stmt} (hf : st.fr = [.ptr (some (.stack 0, 0)), .ptr (some (.stack 1, 0)), r, .undef, .undef, .undef, .undef, .undef, .undef])
    (hk : st.stk = 2) (hw : Wf st) (hh : HeapWf st.heap) (hp : st.mem (.stack 0) = some ps) (hv : ∃ v, st.mem (.stack 1) = some [v])
    (ho : st.mem (.ext 0) = some (cells out)) :
    ∃ st', exec c (rawDecls R) .run s st = exec c R .run s st' ∧ Going ps r out st' ∧ st'.heap = st.heap := by
  obtain ⟨fr, heap, mem, k⟩ := st
  dsimp only at hf hk hw hh hp hv ho
  subst hf hk
  refine ⟨⟨rawVars r, heap, upd (upd (upd (upd (upd (upd mem (.stack 2) (some [.ptr none])) (.stack 3) (some [.ptr none])) (.stack 4) (some [.ptr none]))
    (.stack 5) (some [.int 0])) (.stack 6) (some [.int 0])) (.stack 7) (some [.int 0]), 8⟩, ?_, ⟨rfl, rfl, ⟨fun j hj => ?_, fun i hi => ?_⟩, hh, ?_, fun i h1 h2 => ?_, ?_⟩, rfl⟩
  · unfold rawDecls
    rw [exec_decl (v := .ptr none) (w := .ptr none) (by simp) (fun _ => rfl) rfl]
    rw [exec_decl (v := .ptr none) (w := .ptr none) (by simp) (fun _ => rfl) rfl]
    rw [exec_decl (v := .ptr none) (w := .ptr none) (by simp) (fun _ => rfl) rfl]
    rw [exec_decl (v := .int 0) (w := .int 0) (by simp) (fun _ => rfl) rfl]
    rw [exec_decl (v := .int 0) (w := .int 0) (by simp) (fun _ => rfl) rfl]
    rw [exec_decl (v := .int 0) (w := .int 0) (by simp) (fun _ => rfl) rfl]
    rfl
  · have hj : 8 ≤ j := hj
    simp only [upd, Blk.stack.injEq]
    rw [if_neg (by omega), if_neg (by omega), if_neg (by omega), if_neg (by omega), if_neg (by omega), if_neg (by omega)]
    exact hw.stack j (by show 2 ≤ j; omega)
  · simp only [upd, reduceCtorEq, if_false]
    exact hw.heap i hi
  · simpa [upd] using hp
  · match i, h1, h2 with
    | 1, _, _ => simpa [upd] using hv
    | 2, _, _ => exact ⟨_, rfl⟩
    | 3, _, _ => exact ⟨_, rfl⟩
    | 4, _, _ => exact ⟨_, rfl⟩
    | 5, _, _ => exact ⟨_, rfl⟩
    | 6, _, _ => exact ⟨_, rfl⟩
    | 7, _, _ => exact ⟨_, rfl⟩
  · simpa [upd] using ho

/-! ## The blocks are given back -/

theorem free_one {h : Heap} {q : Ptr} {L : List Nat} (hw : HeapWf h) (hl : h.live.Perm (q.ids ++ L)) :
    ∃ h', L8w8jwt.free q s h = .ok ((), h') ∧ h'.live.Perm L ∧ HeapWf h' ∧ h'.tick = h.tick := by
  cases q with
  | none => exact ⟨h, rfl, hl, hw, rfl⟩
  | some b =>
    have hl : h.live.Perm (b.id :: L) := hl
    have hm : b.id ∈ h.live := hl.mem_iff.mpr (by simp)
    refine ⟨{ h with live := h.live.erase b.id }, by simp only [L8w8jwt.free, if_pos hm], ?_, ⟨hw.nodup.erase _, fun i hi => hw.lt i (List.mem_of_mem_erase hi)⟩, rfl⟩
    have := hl.erase b.id
    simpa using this

theorem going_free (G : Going ps r out st) {i j : Nat} {q : Ptr} {h' : Heap} {R : Stmt} (hi : (rawVars r).getD i .undef = .ptr (some (.stack j, 0)))
    (hj : st.mem (.stack j) = some [ptrVal q])
    (hf : L8w8jwt.free q s st.heap = .ok ((), h')) (hh : HeapWf h') (ht : h'.tick = st.heap.tick) :
    exec (mx env fuel 4) (.seq (.exp (.call "l8w8jwt_free" (.cons (.load .ptr (.loc i)) .nil))) R) .run s st =
      exec (mx env fuel 4) R .run s { st with heap := h', mem := fmem st.mem q } ∧ Going ps r out { st with heap := h', mem := fmem st.mem q } := by
  have same : ∀ b, (∀ k, b ≠ .heap k) → fmem st.mem q b = st.mem b := by
    intro b hb
    cases q with
    | none => rfl
    | some k => exact upd_ne _ _ (hb _)
  constructor
  · have hl := eval_load (c := mx env fuel 4) (t := .ptr) (i := i) (b := .stack j) (v := ptrVal q) (w := ptrVal q) (s := s) (st := st) (by rw [G.fr, hi]) rfl hj
      (by cases q <;> rfl)
    refine exec_exp (v := .undef) ((eval_call (evalArgs_cons hl rfl)).trans ?_)
    rw [mx_call (by decide)]
    obtain ⟨v, st2, e, rfl, rfl⟩ := wp_l8freeP env fuel 3 (P := q) (s := s) (st := st) (Q := fun v st2 => v = .undef ∧ st2 = _) hf
      (fun j hj => G.wf.stack j hj) ⟨rfl, rfl⟩
    exact e
  · refine ⟨G.fr, G.stk, ⟨fun k hk => (same _ (by simp)).trans (G.wf.stack k hk), fun k hk => ?_⟩, hh, (same _ (by simp)).trans G.params,
      fun k h1 h2 => ?_, (same _ (by simp)).trans G.out⟩
    · have hk2 : st.heap.tick ≤ k := by rw [← ht]; exact hk
      show fmem st.mem q (.heap k) = none
      cases q with
      | none => exact G.wf.heap k hk2
      | some b =>
        by_cases e : k = b.id
        · rw [e]; exact upd_same _ _ _
        · exact (upd_ne _ _ (by simpa using e)).trans (G.wf.heap k hk2)
    · obtain ⟨v, hv⟩ := G.cell k h1 h2
      exact ⟨v, (same _ (by simp)).trans hv⟩

theorem going_zero (G : Going ps r out st) {i j : Nat} {R : Stmt} (hi : (rawVars r).getD i .undef = .ptr (some (.stack j, 0))) (h1 : 1 ≤ j) (h8 : j < 8) :
    exec c (.seq (.exp (.store (.int .u64) (.loc i) (.num 0))) R) .run s st = exec c R .run s { st with mem := upd st.mem (.stack j) (some [.int 0]) } ∧
      Going ps r out { st with mem := upd st.mem (.stack j) (some [.int 0]) } := by
  obtain ⟨v, hv⟩ := G.cell j h1 h8
  refine ⟨exec_exp (eval_store (B := .stack j) (o := 0) (v := .int 0) (w := .int 0) (eval_loc (by rw [G.fr, hi])) rfl rfl hv (by omega) (by simp) rfl), G.fr, G.stk,
    ⟨fun k hk => ?_, fun k hk => ?_⟩, G.heap, (upd_ne _ _ (by simp; omega)).trans G.params, fun k a1 a2 => ?_, ?_⟩
  · have hk : st.stk ≤ k := hk
    rw [G.stk] at hk
    exact (upd_ne _ _ (by simp; omega)).trans (G.wf.stack k (by rw [G.stk]; omega))
  · exact (upd_ne st.mem (some [.int 0]) (b := .stack j) (by simp)).trans (G.wf.heap k hk)
  · by_cases e : k = j
    · subst e; exact ⟨_, upd_same _ _ _⟩
    · obtain ⟨v, hv⟩ := G.cell k a1 a2
      exact ⟨v, (upd_ne _ _ (by simpa using e)).trans hv⟩
  · exact (upd_ne st.mem (some [.int 0]) (b := .stack j) (by simp)).trans G.out

theorem raw_frees (G : Going ps r out st) {q1 q2 q3 : Ptr} {L : List Nat} {R : Stmt} (h2 : st.mem (.stack 2) = some [ptrVal q1])
    (h3 : st.mem (.stack 3) = some [ptrVal q2]) (h4 : st.mem (.stack 4) = some [ptrVal q3])
    (hl : st.heap.live.Perm (q1.ids ++ (q2.ids ++ (q3.ids ++ L)))) :
    ∃ st', exec (mx env fuel 4) (rawFrees R) .run s st = exec (mx env fuel 4) R .run s st' ∧ Going ps r out st' ∧ st'.heap.live.Perm L := by
  have same : ∀ (mem : Blk → Option (List Val)) (q : Ptr) b, (∀ k, b ≠ .heap k) → fmem mem q b = mem b := by
    intro mem q b hb
    cases q with
    | none => rfl
    | some k => exact upd_ne _ _ (hb _)
  obtain ⟨g1, f1, p1, w1, t1⟩ := free_one (s := s) G.heap hl
  obtain ⟨e1, G1⟩ := going_free (env := env) (fuel := fuel) (i := 3) (j := 2)
    (R := .seq (.exp (.call "l8w8jwt_free" (.cons (.load .ptr (.loc 4)) .nil)))
      (.seq (.exp (.call "l8w8jwt_free" (.cons (.load .ptr (.loc 5)) .nil)))
      (.seq (.exp (.store (.int .u64) (.loc 6) (.num 0)))
      (.seq (.exp (.store (.int .u64) (.loc 7) (.num 0)))
      (.seq (.exp (.store (.int .u64) (.loc 8) (.num 0))) R))))) G rfl h2 f1 w1 t1
  obtain ⟨g2, f2, p2, w2, t2⟩ := free_one (s := s) w1 p1
  obtain ⟨e2, G2⟩ := going_free (env := env) (fuel := fuel) (i := 4) (j := 3) (q := q2)
    (R := .seq (.exp (.call "l8w8jwt_free" (.cons (.load .ptr (.loc 5)) .nil)))
      (.seq (.exp (.store (.int .u64) (.loc 6) (.num 0)))
      (.seq (.exp (.store (.int .u64) (.loc 7) (.num 0)))
      (.seq (.exp (.store (.int .u64) (.loc 8) (.num 0))) R)))) G1 rfl ((same _ _ _ (by simp)).trans h3) f2 w2 t2
  obtain ⟨g3, f3, p3, w3, t3⟩ := free_one (s := s) w2 p2
  obtain ⟨e3, G3⟩ := going_free (env := env) (fuel := fuel) (i := 5) (j := 4) (q := q3)
    (R := .seq (.exp (.store (.int .u64) (.loc 6) (.num 0)))
      (.seq (.exp (.store (.int .u64) (.loc 7) (.num 0)))
      (.seq (.exp (.store (.int .u64) (.loc 8) (.num 0))) R))) G2 rfl ((same _ _ _ (by simp)).trans ((same _ _ _ (by simp)).trans h4)) f3 w3 t3
  obtain ⟨e4, G4⟩ := going_zero (c := mx env fuel 4) (s := s) (i := 6) (j := 5) (R := .seq (.exp (.store (.int .u64) (.loc 7) (.num 0)))
      (.seq (.exp (.store (.int .u64) (.loc 8) (.num 0))) R)) G3 rfl (by omega) (by omega)
  obtain ⟨e5, G5⟩ := going_zero (c := mx env fuel 4) (s := s) (i := 7) (j := 6) (R := .seq (.exp (.store (.int .u64) (.loc 8) (.num 0))) R) G4 rfl (by omega) (by omega)
  obtain ⟨e6, G6⟩ := going_zero (c := mx env fuel 4) (s := s) (i := 8) (j := 7) (R := R) G5 rfl (by omega) (by omega)
  exact ⟨_, e1.trans (e2.trans (e3.trans (e4.trans (e5.trans e6)))), G6, p3⟩

end

/-! ## The calls -/

section
variable {env : Env} {fuel : Nat} {s : Sched} {alg : Int} {key jwt : Bytes} {name : String} {r : Val} {out : Bytes} {st : St}

/-- The cells of the parameters. -/
def rawParams (alg : Int) (key jwt : Bytes) : List Val := decCells (exDecRequest alg key jwt false false) (exDecPtrs key jwt false false)

/-- The state after a call. -/
theorem going_called {ps : List Val} (G : Going ps r out st) {os : List (Option Blk)} {h' : Heap} {mem' : Blk → Option (List Val)} (K : Kept os st h' mem')
    (h0 : ∀ i, i = 0 ∨ 8 ≤ i → some (.stack i) ∉ os) (hx : ∀ i, some (.ext i) ∉ os)
    (hc : ∀ i, 1 ≤ i → i < 8 → ∃ v, mem' (.stack i) = some [v]) (r' : Val) : Going ps r' out { st with fr := rawVars r', heap := h', mem := mem' } :=
  ⟨rfl, G.stk, ⟨K.stack, K.free⟩, K.heap, (K.same _ (h0 0 (Or.inl rfl)) (by simp)).trans G.params, hc, (K.same _ (hx 0) (by simp)).trans G.out⟩

theorem going_loc {c : Ctx} {ps : List Val} (G : Going ps r out st) (i : Nat) {v : Val} (h : (rawVars r).getD i .undef = v) : eval c (.loc i) s st = .ok (v, st) :=
  eval_loc (by rw [G.fr, h])

theorem going_outs {c : Ctx} {ps : List Val} (G : Going ps r out st) : evalArgs c rawOuts s st =
    .ok ([optV (some (.stack 2)), optV (some (.stack 5)), optV (some (.stack 3)), optV (some (.stack 6)), optV (some (.stack 4)), optV (some (.stack 7))], st) := by
  have hn : evalArgs c .nil s st = .ok ([], st) := by simp only [evalArgs, X.pure_apply]
  exact evalArgs_cons (going_loc G 3 rfl) (evalArgs_cons (going_loc G 6 rfl) (evalArgs_cons (going_loc G 4 rfl) (evalArgs_cons (going_loc G 7 rfl)
    (evalArgs_cons (going_loc G 5 rfl) (evalArgs_cons (going_loc G 8 rfl) hn)))))

/-- `l8w8jwt_decode_raw_no_validation`. -/
theorem nv_call (E : ExDecEnv env alg) (A : ExDecArgs fuel alg key jwt) (G : Going (rawParams alg key jwt) r out st) {o : RawOut} {h' : Heap}
    (he : decodeRawNoValidation env (some (exDecRequest alg key jwt false false)) {} s st.heap = .ok (o, h')) {x1 x2 x3 : Ptr × Nat}
    (h1 : o.header = some x1) (h2 : o.payload = some x2) (h3 : o.signature = some x3) :
    ∃ mem', eval (mx env fuel 4) (.set 2 (.call "l8w8jwt_decode_raw_no_validation" (.cons (.loc 0) rawOuts))) s st =
        .ok (.int o.rc, { st with fr := rawVars (.int o.rc), heap := h', mem := mem' }) ∧
      Going (rawParams alg key jwt) (.int o.rc) out { st with fr := rawVars (.int o.rc), heap := h', mem := mem' } ∧
      mem' (.stack 2) = some [ptrVal x1.1] ∧ mem' (.stack 3) = some [ptrVal x2.1] ∧ mem' (.stack 4) = some [ptrVal x3.1] ∧
      (∀ b, x1.1 = some b ∨ x2.1 = some b → mem' (.heap b.id) = some (cells b.mem)) := by
  have ho : OutsAt st.mem [some (.stack 2), some (.stack 5), some (.stack 3), some (.stack 6), some (.stack 4), some (.stack 7)] := by
    refine ⟨fun b hb => ?_, by simp⟩
    simp only [List.mem_cons, Option.some.injEq, List.not_mem_nil, or_false] at hb
    rcases hb with rfl | rfl | rfl | rfl | rfl | rfl <;> exact ⟨rfl, G.cell _ (by omega) (by omega)⟩
  have hc := decode_call (nbf := false) (typ := false) E.garbage A G.wf G.heap G.params ho (by simp) (by simp)
  obtain ⟨mem', e, D⟩ := decode_raw_nv_text (d := 0) (s := s) hc he
  have w1 : mem' (.stack 2) = some [ptrVal x1.1] := by have := D.header _ rfl; rwa [h1] at this
  have w2 : mem' (.stack 3) = some [ptrVal x2.1] := by have := D.payload _ rfl; rwa [h2] at this
  have w3 : mem' (.stack 4) = some [ptrVal x3.1] := by have := D.signature _ rfl; rwa [h3] at this
  have w4 : mem' (.stack 5) = some [.int x1.2] := by have := D.headerLength _ rfl; rwa [h1] at this
  have w5 : mem' (.stack 6) = some [.int x2.2] := by have := D.payloadLength _ rfl; rwa [h2] at this
  have w6 : mem' (.stack 7) = some [.int x3.2] := by have := D.signatureLength _ rfl; rwa [h3] at this
  refine ⟨mem', ?_, going_called G D.kept ?_ (by simp) ?_ _, w1, w2, w3, fun b hb => ?_⟩
  · have ec : eval (mx env fuel 4) (.call "l8w8jwt_decode_raw_no_validation" (.cons (.loc 0) rawOuts)) s st = .ok (.int o.rc, { st with heap := h', mem := mem' }) := by
      rw [eval_call (evalArgs_cons (going_loc G 0 rfl) (going_outs G)), mx_call (by decide), cx_fun _ _ _ rfl]
      exact e
    refine (eval_set ec).trans ?_
    show Except.ok (Val.int o.rc, ({ st with fr := st.fr.set 2 (.int o.rc), heap := h', mem := mem' } : St)) = _
    rw [G.fr]
    rfl
  · intro i hi
    simp only [List.mem_cons, Option.some.injEq, Blk.stack.injEq, List.not_mem_nil, or_false]
    omega
  · intro i a b
    match i, a, b with
    | 1, _, _ => exact ⟨_, (D.kept.same (.stack 1) (by simp) (by simp)).trans (G.cell 1 (by omega) (by omega)).choose_spec⟩
    | 2, _, _ => exact ⟨_, w1⟩
    | 3, _, _ => exact ⟨_, w2⟩
    | 4, _, _ => exact ⟨_, w3⟩
    | 5, _, _ => exact ⟨_, w4⟩
    | 6, _, _ => exact ⟨_, w5⟩
    | 7, _, _ => exact ⟨_, w6⟩
  · rcases hb with hb | hb
    · exact D.bytes x1.1 x1.2 (Or.inl h1) b hb
    · exact D.bytes x2.1 x2.2 (Or.inr (Or.inl h2)) b hb

/-- `l8w8jwt_decode_raw`. -/
theorem raw_call (E : ExDecEnv env alg) (A : ExDecArgs fuel alg key jwt) (G : Going (rawParams alg key jwt) r out st) {o : RawOut} {h' : Heap}
    (he : decodeRaw env (some (exDecRequest alg key jwt false false)) false {} s st.heap = .ok (o, h')) {x1 x2 x3 : Ptr × Nat} {v : BitVec 32}
    (h0 : o.validation = some v) (h1 : o.header = some x1) (h2 : o.payload = some x2) (h3 : o.signature = some x3) :
    ∃ mem', eval (mx env fuel 4) (.set 2 (.call "l8w8jwt_decode_raw" (.cons (.loc 0) (.cons (.loc 1) rawOuts)))) s st =
        .ok (.int o.rc, { st with fr := rawVars (.int o.rc), heap := h', mem := mem' }) ∧
      Going (rawParams alg key jwt) (.int o.rc) out { st with fr := rawVars (.int o.rc), heap := h', mem := mem' } ∧ mem' (.stack 1) = some [.int v.toNat] ∧
      mem' (.stack 2) = some [ptrVal x1.1] ∧ mem' (.stack 3) = some [ptrVal x2.1] ∧ mem' (.stack 4) = some [ptrVal x3.1] ∧
      (∀ b, x1.1 = some b ∨ x2.1 = some b → mem' (.heap b.id) = some (cells b.mem)) := by
  have ho : OutsAt st.mem [some (.stack 1), some (.stack 2), some (.stack 5), some (.stack 3), some (.stack 6), some (.stack 4), some (.stack 7)] := by
    refine ⟨fun b hb => ?_, by simp⟩
    simp only [List.mem_cons, Option.some.injEq, List.not_mem_nil, or_false] at hb
    rcases hb with rfl | rfl | rfl | rfl | rfl | rfl | rfl <;> exact ⟨rfl, G.cell _ (by omega) (by omega)⟩
  have hc := decode_call (nbf := false) (typ := false) E.garbage A G.wf G.heap G.params ho (by simp) (by simp)
  obtain ⟨mem', e, V, D⟩ := decode_raw_text (d := 0) (s := s) hc he
  have w0 : mem' (.stack 1) = some [.int v.toNat] := by have := V _ rfl; rwa [h0] at this
  have w1 : mem' (.stack 2) = some [ptrVal x1.1] := by have := D.header _ rfl; rwa [h1] at this
  have w2 : mem' (.stack 3) = some [ptrVal x2.1] := by have := D.payload _ rfl; rwa [h2] at this
  have w3 : mem' (.stack 4) = some [ptrVal x3.1] := by have := D.signature _ rfl; rwa [h3] at this
  have w4 : mem' (.stack 5) = some [.int x1.2] := by have := D.headerLength _ rfl; rwa [h1] at this
  have w5 : mem' (.stack 6) = some [.int x2.2] := by have := D.payloadLength _ rfl; rwa [h2] at this
  have w6 : mem' (.stack 7) = some [.int x3.2] := by have := D.signatureLength _ rfl; rwa [h3] at this
  refine ⟨mem', ?_, going_called G D.kept ?_ (by simp) ?_ _, w0, w1, w2, w3, fun b hb => ?_⟩
  · have ec : eval (mx env fuel 4) (.call "l8w8jwt_decode_raw" (.cons (.loc 0) (.cons (.loc 1) rawOuts))) s st = .ok (.int o.rc, { st with heap := h', mem := mem' }) := by
      rw [eval_call (evalArgs_cons (going_loc G 0 rfl) (evalArgs_cons (going_loc G 1 rfl) (going_outs G))), mx_call (by decide), cx_fun _ _ _ rfl]
      exact e
    refine (eval_set ec).trans ?_
    show Except.ok (Val.int o.rc, ({ st with fr := st.fr.set 2 (.int o.rc), heap := h', mem := mem' } : St)) = _
    rw [G.fr]
    rfl
  · intro i hi
    simp only [List.mem_cons, Option.some.injEq, Blk.stack.injEq, List.not_mem_nil, or_false]
    omega
  · intro i a b
    match i, a, b with
    | 1, _, _ => exact ⟨_, w0⟩
    | 2, _, _ => exact ⟨_, w1⟩
    | 3, _, _ => exact ⟨_, w2⟩
    | 4, _, _ => exact ⟨_, w3⟩
    | 5, _, _ => exact ⟨_, w4⟩
    | 6, _, _ => exact ⟨_, w5⟩
    | 7, _, _ => exact ⟨_, w6⟩
  · rcases hb with hb | hb
    · exact D.bytes x1.1 x1.2 (Or.inl h1) b hb
    · exact D.bytes x2.1 x2.2 (Or.inr (Or.inl h2)) b hb

/-! ## The segments -/

/-- What `%s` prints of the buffer a text was decoded into: also the octet made of unused bits (C07). -/
def segText (a : Bytes) : Bytes := jsonOf a ++ leftover true a

theorem textAt_seg {mem : Blk → Option (List Val)} {i : Nat} {a d : Bytes} (hd : b64Decode true a = some d) (hm : mem (.heap i) = some (cells (segBuf a))) :
    TextAt mem (.ptr (some (.heap i, 0))) (segText a) := by
  refine ⟨segBuf a, ⟨.heap i, 0, _, rfl, (cont_own rfl).trans hm, by simp, by rw [bytesFrom_cells]; rfl⟩, ?_⟩
  have hl := segBuf_length hd
  have hj : jsonOf a = d := by rw [jsonOf, hd]; rfl
  have e : segBuf a = segText a ++ List.replicate ((segBuf a).length - (segText a).length) 0 := by
    have : segBuf a = padTo ((a.filter (relevant true)).length / 4 * 3 + 16) (segText a) := rfl
    rw [hl.1]
    exact this
  have hlt : (segText a).length < (segBuf a).length := by
    rw [segText, hj]
    omega
  rw [e]
  refine strlen_zero _ _ (Or.inr ?_)
  obtain ⟨k, hk⟩ : ∃ k, (segBuf a).length - (segText a).length = k + 1 := ⟨_, (Nat.succ_pred_eq_of_pos (by omega)).symm⟩
  exact ⟨List.replicate k 0, by rw [hk, List.replicate_succ]⟩

theorem segs_shown {sg : Segs} {a b c d1 d2 : Bytes} (hi : SegInfo s alg jwt sg) (g : s.noAllocFail) (h3 : ThreeParts jwt a b c)
    (e1 : b64Decode true a = some d1) (e2 : b64Decode true b = some d2) :
    ∃ i j, sg.header = some ⟨i, segBuf a⟩ ∧ sg.payload = some ⟨j, segBuf b⟩ := by
  obtain ⟨x, y, z, hz, -, hs⟩ := hi.handed
  obtain ⟨rfl, rfl, rfl⟩ := handsOut_unique hz (.three h3)
  obtain ⟨s1, s2, -⟩ := hs g
  rw [e1] at s1
  rw [e1, decodedIf_pos (c := (some d1).isSome = true) rfl, e2] at s2
  obtain ⟨_, _, n1, -⟩ := s1
  obtain ⟨_, _, n2, -⟩ := s2
  rcases hi.parts with ⟨hn, -⟩ | ⟨_, _, h2, -⟩ | ⟨a', b', c', h3', S1, S2, -⟩
  · exact absurd (by rw [h3.1]; simp) hn
  · exact (two_not_three h2 h3).elim
  · obtain ⟨rfl, rfl, rfl⟩ := three_unique h3 h3'
    rcases S1 with ⟨q, -⟩ | ⟨i, _, q1, -⟩
    · rw [q] at n1; cases n1
    · rcases S2 with ⟨q, -⟩ | ⟨j, _, q2, -⟩
      · rw [q] at n2; cases n2
      · exact ⟨i, j, q1, q2⟩

theorem _root_.L8w8jwt.Outcome.segInfo {p : DecParams} {tok : Bytes} {d : DecState} (g : s.noAllocFail) (ho : Outcome env s p tok d) : SegInfo s p.alg tok d.segs := by
  cases ho with
  | oom hx => exact absurd g hx
  | segs hi => exact hi
  | verify hi => exact hi
  | claims hi => exact hi
  | done hi => exact hi

/-- The header is there or not. -/
theorem segs_header {sg : Segs} (hi : SegInfo s alg jwt sg) : sg.header = none ∨ ∃ i a d, sg.header = some ⟨i, segBuf a⟩ ∧ b64Decode true a = some d := by
  have seg : ∀ {q n a}, Seg? q n a → q = none ∨ ∃ i a d, q = some ⟨i, segBuf a⟩ ∧ b64Decode true a = some d := by
    rintro q n a (⟨h, -⟩ | ⟨i, d, h1, h2, -⟩)
    · exact Or.inl h
    · exact Or.inr ⟨i, a, d, h1, h2⟩
  rcases hi.parts with ⟨-, h⟩ | ⟨_, _, -, S1, -⟩ | ⟨_, _, _, -, S1, -⟩
  · rw [h]; exact Or.inl rfl
  · exact seg S1
  · exact seg S1

/-! ## The messages of the program -/

theorem nv_printed {ps : List Val} {rc i j : Nat} {a b d1 d2 t : Bytes} {R : Stmt} (G : Going ps (.int rc) out st) (hr : rc < 2147483648)
    (w1 : st.mem (.stack 2) = some [.ptr (some (.heap i, 0))]) (w2 : st.mem (.stack 3) = some [.ptr (some (.heap j, 0))])
    (m1 : st.mem (.heap i) = some (cells (segBuf a))) (m2 : st.mem (.heap j) = some (cells (segBuf b)))
    (e1 : b64Decode true a = some d1) (e2 : b64Decode true b = some d2)
    (ht : t = out ++ nvMessage rc (cString (segText a)) (cString (segText b))) :
    exec (mx env fuel 4) (.seq (.exp (.call "printf" (.cons (.str nvFormat) (.cons rawSuccess (.cons (.loc 2) (.cons (.load .ptr (.loc 3))
      (.cons (.load .ptr (.loc 4)) .nil))))))) R) .run s st =
      exec (mx env fuel 4) R .run s { st with mem := upd st.mem (.ext 0) (some (cells t)) } := by
  subst ht
  have hs := eval_success (c := mx env fuel 4) (i := 2) (rc := rc) (s := s) (st := st) (by rw [G.fr]; rfl)
  have l1 := eval_load (c := mx env fuel 4) (t := .ptr) (i := 3) (w := .ptr (some (.heap i, 0))) (s := s) (st := st) (by rw [G.fr]; rfl) rfl w1 rfl
  have l2 := eval_load (c := mx env fuel 4) (t := .ptr) (i := 4) (w := .ptr (some (.heap j, 0))) (s := s) (st := st) (by rw [G.fr]; rfl) rfl w2 rfl
  refine exec_exp (v := .undef) ((eval_call (evalArgs_cons rfl (evalArgs_cons hs (evalArgs_cons (going_loc G 2 rfl) (evalArgs_cons l1 (evalArgs_cons l2 rfl)))))).trans ?_)
  exact printed_nv (textAt_seg e1 m1) (textAt_seg e2 m2) hr G.out

theorem raw_printed {ps : List Val} {rc i j : Nat} {v : BitVec 32} {a b d1 d2 t : Bytes} {R : Stmt} (G : Going ps (.int rc) out st) (hr : rc < 2147483648)
    (w0 : st.mem (.stack 1) = some [.int v.toNat])
    (w1 : st.mem (.stack 2) = some [.ptr (some (.heap i, 0))]) (w2 : st.mem (.stack 3) = some [.ptr (some (.heap j, 0))])
    (m1 : st.mem (.heap i) = some (cells (segBuf a))) (m2 : st.mem (.heap j) = some (cells (segBuf b)))
    (e1 : b64Decode true a = some d1) (e2 : b64Decode true b = some d2)
    (ht : t = out ++ rawMessage rc v (cString (segText a)) (cString (segText b))) :
    exec (mx env fuel 4) (.seq (.exp (.call "printf" (.cons (.str rawFormat) (.cons rawSuccess (.cons (.loc 2) (.cons (.load (.int .u32) (.loc 1)) (.cons (.load .ptr (.loc 3))
      (.cons (.load .ptr (.loc 4)) .nil)))))))) R) .run s st =
      exec (mx env fuel 4) R .run s { st with mem := upd st.mem (.ext 0) (some (cells t)) } := by
  have hlt := v.isLt
  subst ht
  have hs := eval_success (c := mx env fuel 4) (i := 2) (rc := rc) (s := s) (st := st) (by rw [G.fr]; rfl)
  have l0 := eval_load (c := mx env fuel 4) (t := .int .u32) (i := 1) (w := .int v.toNat) (s := s) (st := st) (by rw [G.fr]; rfl) rfl w0
    (by show Except.ok (Val.int (wrap _ .u32 v.toNat)) = _; simp only [wrap, ITy.signed, ITy.modulus]; congr 2; simp; omega)
  have l1 := eval_load (c := mx env fuel 4) (t := .ptr) (i := 3) (w := .ptr (some (.heap i, 0))) (s := s) (st := st) (by rw [G.fr]; rfl) rfl w1 rfl
  have l2 := eval_load (c := mx env fuel 4) (t := .ptr) (i := 4) (w := .ptr (some (.heap j, 0))) (s := s) (st := st) (by rw [G.fr]; rfl) rfl w2 rfl
  refine exec_exp (v := .undef) ((eval_call (evalArgs_cons rfl (evalArgs_cons hs (evalArgs_cons (going_loc G 2 rfl) (evalArgs_cons l0 (evalArgs_cons l1 (evalArgs_cons l2 rfl))))))).trans ?_)
  exact printed_raw (textAt_seg e1 m1) (textAt_seg e2 m2) hr G.out

theorem nv_null {ps : List Val} {rc : Nat} {x w : Val} {t : Bytes} {R : Stmt} (G : Going ps (.int rc) out st)
    (w1 : st.mem (.stack 2) = some [x]) (w2 : st.mem (.stack 3) = some [w]) (hx : asTy (mx env fuel 4).cs .ptr x = .ok x) (hw : asTy (mx env fuel 4).cs .ptr w = .ok w)
    (h : x = .ptr none ∨ (TextAt st.mem x t ∧ w = .ptr none)) :
    exec (mx env fuel 4) (.seq (.exp (.call "printf" (.cons (.str nvFormat) (.cons rawSuccess (.cons (.loc 2) (.cons (.load .ptr (.loc 3))
      (.cons (.load .ptr (.loc 4)) .nil))))))) R) .run s st = .error (.ub .nullDeref) := by
  have hs := eval_success (c := mx env fuel 4) (i := 2) (rc := rc) (s := s) (st := st) (by rw [G.fr]; rfl)
  have l1 := eval_load (c := mx env fuel 4) (t := .ptr) (i := 3) (w := x) (s := s) (st := st) (by rw [G.fr]; rfl) rfl w1 hx
  have l2 := eval_load (c := mx env fuel 4) (t := .ptr) (i := 4) (w := w) (s := s) (st := st) (by rw [G.fr]; rfl) rfl w2 hw
  refine exec_exp_error ((eval_call (evalArgs_cons rfl (evalArgs_cons hs (evalArgs_cons (going_loc G 2 rfl) (evalArgs_cons l1 (evalArgs_cons l2 rfl)))))).trans ?_)
  exact printed_nv_null h

theorem keep_ext (m : Blk → Option (List Val)) (t : Bytes) {x : Blk} {v : Option (List Val)} (hx : x ≠ .ext 0) (h : m x = v) :
    upd m (.ext 0) (some (cells t)) x = v := (upd_ne _ _ hx).trans h

theorem going_printed {ps : List Val} (G : Going ps r out st) (t : Bytes) : Going ps r t { st with mem := upd st.mem (.ext 0) (some (cells t)) } := by
  have same : ∀ {x v}, x ≠ .ext 0 → st.mem x = v → upd st.mem (.ext 0) (some (cells t)) x = v := fun hx h => (upd_ne _ _ hx).trans h
  exact ⟨G.fr, G.stk, ⟨fun k hk => same (by simp) (G.wf.stack k hk), fun k hk => same (by simp) (G.wf.heap k hk)⟩, G.heap, same (by simp) G.params,
    fun i a b => (G.cell i a b).imp fun _ hv => same (by simp) hv, upd_same st.mem (.ext 0) _⟩

/-! ## C88 -/

/-- The first part of the program. -/
theorem raw_start (E : ExDecEnv env alg) (A : ExDecArgs fuel alg key jwt) (hn : NameOk name) {o : DecOut} {h' : Heap} {v : BitVec 32}
    (he : decode env (some (exDecRequest alg key jwt false false)) false true true s ⟨0, []⟩ = .ok (o, h')) (hr : o.rc < 2147483648) (hv : o.validation = some v) :
    ∃ st, exec (mx env fuel 4) (Ex.decodeRawMain alg [] key jwt (decFormat name)).body .run s
        { begin with fr := [] ++ List.replicate ((Ex.decodeRawMain alg [] key jwt (decFormat name)).slots - 0) .undef } =
        exec (mx env fuel 4) (nvPart (rawFrees (rawPart (rawFrees (.ret (.num 0)))))) .run s st ∧
      Going (rawParams alg key jwt) (.int o.rc) (decMessage name o.rc v) st ∧ st.heap = h' := by
  have hc := decode_call (nbf := false) (typ := false) (st := decSt 7 alg key jwt false false) E.garbage A (layMem_wf _ _ _) heap_start rfl decSt_outs (by simp) (by simp)
  obtain ⟨mem', e, D⟩ := decode_text (d := 0) hc he
  have g1 := D.validation (.stack 1) rfl
  rw [hv] at g1
  have g2 : mem' (.ext 0) = some (cells []) := D.kept.same (.ext 0) (by simp) (by simp)
  have g3 : mem' (.stack 0) = some (rawParams alg key jwt) := D.kept.same (.stack 0) (by simp) (by simp)
  have t := dec_tail (env := env) (fuel := fuel) (s := s) (i := 2) (a := .null) (b := .null) (v := v) (out := []) (rest := rawTail) hn hr rfl rfl (by omega)
    (by show 2 < 9; decide) rfl rfl e rfl g1 g2
  obtain ⟨st', d, G, hh⟩ := raw_decls (c := mx env fuel 4) (s := s) (ps := rawParams alg key jwt) (r := .int o.rc) (out := decMessage name o.rc v)
    (R := nvPart (rawFrees (rawPart (rawFrees (.ret (.num 0))))))
    (st := ⟨(decVars 7).set 2 (.int o.rc), h', upd mem' (.ext 0) (some (cells ([] ++ decMessage name o.rc v))), 2⟩) rfl rfl
    ⟨fun j hj => keep_ext mem' ([] ++ decMessage name o.rc v) (by simp) (D.kept.stack j hj), fun i hi => keep_ext mem' ([] ++ decMessage name o.rc v) (by simp) (D.kept.free i hi)⟩
    D.kept.heap (keep_ext mem' ([] ++ decMessage name o.rc v) (by simp) g3) ⟨_, keep_ext mem' ([] ++ decMessage name o.rc v) (by simp) g1⟩ (by exact upd_same mem' (.ext 0) _)
  refine ⟨st', ?_, G, hh⟩
  have p := (symRun_sound (env := env) (fuel := fuel) (n := 3) (s := s) (h := ⟨0, []⟩) (out := []) 16 _ _ _ _ (raw_prefix alg env.now key jwt (decFormat name)) (decNeed_ok A.key.1 A.jwt.1)).2
  exact p.trans (t.trans d)

/-- **C88** The text of examples/rs256/decode.c with any algorithm, key and token in three parts of which the first two can be decoded,
where decoding is defined and no allocation fails: it prints return code and validation result of the specification twice, in between
the return code of splitting the token, and both times what the header and the payload say, up to the first NUL and with an octet of
unused bits, if there is one (C07); it returns 0, and all memory has been given back unless the token is one of those for which blocks
are lost (C49). -/
theorem C88_raw (E : ExDecEnv env alg) (A : ExDecArgs fuel alg key jwt) (hn : NameOk name) (gd : s.good)
    (hd : DecDefined env (exDecRequest alg key jwt false false) jwt) {a b c d1 d2 : Bytes} (h3 : ThreeParts jwt a b c)
    (e1 : b64Decode true a = some d1) (e2 : b64Decode true b = some d2) :
    ∃ rc v ds rc' st', Answer env (exDecRequest alg key jwt false false) jwt rc v ds ∧ SegCode alg jwt rc' ∧
      runMain env fuel (Ex.decodeRawMain alg [] key jwt (decFormat name)) s = .ok (.int 0, st') ∧
      st'.printed = some (decMessage name rc v ++ nvMessage rc' (cString (d1 ++ leftover true a)) (cString (d2 ++ leftover true b)) ++
        rawMessage rc v (cString (d1 ++ leftover true a)) (cString (d2 ++ leftover true b))) ∧
      (¬ LeakyToken jwt → st'.heap.live = []) := by
  have t1 : d1 ++ leftover true a = segText a := by rw [segText, jsonOf, e1]; rfl
  have t2 : d2 ++ leftover true b = segText b := by rw [segText, jsonOf, e2]; rfl
  rw [t1, t2]
  obtain ⟨o, h1, rc, v, ds, he, ha, rfl⟩ := C62_decode_flags (s := s) (h := ⟨0, []⟩) E.crypto (exDec_valid E A) (exDec_token A) gd exDec_key exDec_expect E.time
    hd true
  obtain ⟨st0, x0, G0, rfl⟩ := raw_start (name := name) E A hn he (answer_small ha) rfl
  have seg : ∀ {rc}, SegCode alg jwt rc → rc < 2147483648 := by
    rintro rc (⟨-, rfl⟩ | ⟨_, _, -, ⟨-, rfl⟩ | ⟨-, -, rfl⟩ | ⟨-, -, -, rfl⟩ | ⟨-, -, -, rfl⟩⟩ | ⟨_, _, _, -, ⟨-, rfl⟩ | ⟨-, -, -, rfl⟩⟩) <;> decide
  -- without validation
  obtain ⟨o2, h2, he2, ⟨sg, hi, rfl⟩, M2⟩ := wp_iff_exists.mp (wp_decodeRawNv (env := env) (p := exDecRequest alg key jwt false false) (s := s) (h := st0.heap)
    (exDec_valid E A) (exDec_token A) {} rfl rfl (fun _ => False))
  have hcode : SegCode alg jwt sg.rc := hi.code.resolve_right (fun hx => hx.2 gd.1)
  obtain ⟨i, j, q1, q2⟩ := segs_shown hi gd.1 h3 e1 e2
  obtain ⟨m2, x2, G2, w1, w2, w3, wb⟩ := nv_call E A G0 he2 (x1 := (sg.header, sg.headerLength)) (x2 := (sg.payload, sg.payloadLength))
    (x3 := (sg.signature, sg.signatureLength)) rfl rfl rfl
  have b1 := wb _ (Or.inl q1)
  have b2 := wb _ (Or.inr q2)
  obtain ⟨T2, hT2⟩ : ∃ T, T = decMessage name rc v ++ nvMessage sg.rc (cString (segText a)) (cString (segText b)) := ⟨_, rfl⟩
  have y2 := nv_printed (env := env) (fuel := fuel) (s := s) (R := rawFrees (rawPart (rawFrees (.ret (.num 0))))) G2 (seg hcode) (by rw [q1] at w1; exact w1) (by rw [q2] at w2; exact w2) b1 b2 e1 e2 hT2
  have G2' := going_printed G2 T2
  obtain ⟨l2, o2, p2⟩ := M2
  obtain ⟨st3, x3, G3, p3⟩ := raw_frees (env := env) (fuel := fuel) (s := s) (R := rawPart (rawFrees (.ret (.num 0)))) (L := st0.heap.live) G2'
    (keep_ext m2 T2 (by simp) w1) (keep_ext m2 T2 (by simp) w2) (keep_ext m2 T2 (by simp) w3) (by
      show h2.live.Perm _
      rw [o2.live]
      refine (p2.append_right _).trans ?_
      simp [rawIds, rawNvOut, given, givenIds])
  -- with validation
  have safe : SegCode alg jwt L8W8JWT_SUCCESS → DecSafe env s (exDecRequest alg key jwt false false) jwt := hd.safe gd exDec_key exDec_expect E.time env.garbage
  obtain ⟨o4, h4, he4, ⟨ds4, out4, rfl⟩, leak, M4, K4⟩ :=
    wp_iff_exists.mp (wp_decodeRaw (s := s) (h := st3.heap) E.crypto (exDec_valid E A) (exDec_token A) {} rfl (fun _ => False) (Or.inl safe))
  obtain ⟨cs, ha4, -⟩ := outcome_answer gd exDec_expect E.time out4
  obtain ⟨r1, r2, -⟩ := answer_unique ha4 ha
  obtain ⟨i', j', q1', q2'⟩ := segs_shown (out4.segInfo gd.1) gd.1 h3 e1 e2
  obtain ⟨m4, x4, G4, v4, w1', w2', w3', wb'⟩ := raw_call E A G3 he4 (v := ds4.validation) (x1 := (ds4.segs.header, ds4.segs.headerLength))
    (x2 := (ds4.segs.payload, ds4.segs.payloadLength)) (x3 := (ds4.segs.signature, ds4.segs.signatureLength)) rfl rfl rfl rfl
  have b1' := wb' _ (Or.inl q1')
  have b2' := wb' _ (Or.inr q2')
  obtain ⟨T4, hT4⟩ : ∃ T, T = T2 ++ rawMessage ds4.rc ds4.validation (cString (segText a)) (cString (segText b)) := ⟨_, rfl⟩
  have y4 := raw_printed (env := env) (fuel := fuel) (s := s) (R := rawFrees (.ret (.num 0))) G4 (by show ds4.rc < _; rw [r1]; exact answer_small ha) v4
    (by rw [q1'] at w1'; exact w1') (by rw [q2'] at w2'; exact w2') b1' b2' e1 e2 hT4
  have G4' := going_printed G4 T4
  obtain ⟨l4, o4, p4⟩ := M4
  obtain ⟨st5, x5, G5, p5⟩ := raw_frees (env := env) (fuel := fuel) (s := s) (R := .ret (.num 0)) (L := leak ++ st3.heap.live) G4'
    (keep_ext m4 T4 (by simp) w1') (keep_ext m4 T4 (by simp) w2') (keep_ext m4 T4 (by simp) w3') (by
      show h4.live.Perm _
      rw [o4.live]
      refine (p4.append_right _).trans ?_
      simp [rawIds, rawOut, given, givenIds])
  refine ⟨rc, v, ds, sg.rc, _, ha, hcode, runMain_ok rfl (x0.trans ((exec_exp x2).trans (y2.trans (x3.trans ((exec_exp x4).trans (y4.trans (x5.trans rfl))))))), ?_, fun hl => ?_⟩
  · have := G5.out
    simp only [St.printed, dropStack, this, Option.map_some, toBytes_cells, hT4, hT2, r1, r2]
  · have z0 : st0.heap.live = [] := List.perm_nil.mp (C49_no_leak_partial E.crypto (exDec_token A) (Or.inl gd.grow) hl he)
    rw [z0] at p3
    have z3 := List.perm_nil.mp p3
    rcases K4.none (roomFor_few (Or.inl gd.grow)) with rfl | hk
    · rw [z3] at p5
      exact List.perm_nil.mp p5
    · exact absurd (leakyToken_iff.mp hk) hl

/-- C88 is false without the condition on the token, for every other token: if the header or the payload cannot be decoded, NULL is given
to `%s`, which is undefined, although the parameters are valid and no allocation fails. The program does not look at the return code. -/
theorem C88_undecodable_false (E : ExDecEnv env alg) (A : ExDecArgs fuel alg key jwt) (hn : NameOk name) (gd : s.good)
    (hd : DecDefined env (exDecRequest alg key jwt false false) jwt) {x y z : Option Bytes} (hz : HandsOut alg jwt x y z) (hxy : x = none ∨ y = none) :
    runMain env fuel (Ex.decodeRawMain alg [] key jwt (decFormat name)) s = .error (.ub .nullDeref) := by
  obtain ⟨o, h1, rc, v, ds, he, ha, rfl⟩ := C62_decode_flags (s := s) (h := ⟨0, []⟩) E.crypto (exDec_valid E A) (exDec_token A) gd exDec_key exDec_expect E.time
    hd true
  obtain ⟨st0, x0, G0, rfl⟩ := raw_start (name := name) E A hn he (answer_small ha) rfl
  obtain ⟨o2, h2, he2, ⟨sg, hi, rfl⟩, -⟩ := wp_iff_exists.mp (wp_decodeRawNv (env := env) (p := exDecRequest alg key jwt false false) (s := s) (h := st0.heap)
    (exDec_valid E A) (exDec_token A) {} rfl rfl (fun _ => False))
  obtain ⟨x', y', z', hz', -, hs⟩ := hi.handed
  obtain ⟨rfl, rfl, rfl⟩ := handsOut_unique hz hz'
  obtain ⟨s1, s2, -⟩ := hs gd.1
  obtain ⟨m2, x2, G2, w1, w2, -, wb⟩ := nv_call E A G0 he2 (x1 := (sg.header, sg.headerLength)) (x2 := (sg.payload, sg.payloadLength))
    (x3 := (sg.signature, sg.signatureLength)) rfl rfl rfl
  have ptr : ∀ q : Ptr, asTy (mx env fuel 4).cs .ptr (ptrVal q) = .ok (ptrVal q) := by intro q; cases q <;> rfl
  refine runMain_error rfl (x0.trans ((exec_exp x2).trans ?_))
  rcases segs_header hi with q | ⟨i, a, d, q, hd⟩
  · exact nv_null (t := []) G2 w1 w2 (ptr _) (ptr _) (Or.inl (by rw [q]; rfl))
  · have n2 : sg.payload = none := by
      rcases hxy with rfl | rfl
      · rw [s1.1] at q; cases q
      · exact s2.1
    refine nv_null (t := segText a) G2 w1 w2 (ptr _) (ptr _) (Or.inr ⟨?_, by rw [n2]; rfl⟩)
    have hb := wb _ (Or.inl q)
    show TextAt m2 (ptrVal sg.header) _
    rw [q]
    exact textAt_seg hd hb

/-! ## Tokens of the programs -/

/-- What is printed of an encoded text without NUL is that text. -/
theorem shown_encoded {d : Bytes} (h0 : 0 ∉ d) : cString (d ++ leftover true (b64 true d)) = d := by
  have h := C07_base64_nul_encoded true d
  rw [show b64Text true d = b64 true d from rfl] at h
  cases hl : leftover true (b64 true d) with
  | nil => rw [List.append_nil, cString_id h0]
  | cons x xs =>
    rw [hl] at h
    rw [show x = 0 from h, cString_view _ _ h0]

theorem exDefined (h : ExToken jwt n t c) (E : ExDecEnv env alg) (A : ExDecArgs fuel alg key jwt) (hn : NumsOk env.checknum)
    (hs : ∀ d, b64Decode true c = some d → SigFits env (exDecRequest alg key jwt false false) d) :
    DecDefined env (exDecRequest alg key jwt false false) jwt := by
  intro hseg
  have sf := (h.tame (s := calm) E (Or.inr fun _ => rfl) A hn hs).safe hseg
  exact ⟨sf.ver, fun _ a b hp => ⟨((h.few hn).2.2 a b hp).1, fun _ => ((h.few hn).2.2 a b hp).2, fun _ _ _ _ _ _ _ _ _ _ _ he _ => (by cases he)⟩⟩

/-- **C88** The program with a token like those of C84 and any key, where no allocation fails: it prints exactly the header and the payload that
the encode programs write, twice, and the verdict of C85, and all memory has been given back. The raw functions hand out header and payload
also of a token whose signature is wrong: only the result tells. -/
theorem C88_token (E : ExDecEnv env alg) (A : ExDecArgs fuel alg key jwt) (hname : NameOk name) (gd : s.good) (hn : NumsOk env.checknum)
    (h : ExToken jwt n t c) (ha : alg? alg = some (name', sch))
    (hs : ∀ d, b64Decode true c = some d → SigFits env (exDecRequest alg key jwt false false) d) :
    ∃ rc v st', runMain env fuel (Ex.decodeRawMain alg [] key jwt (decFormat name)) s = .ok (.int 0, st') ∧
      st'.printed = some (decMessage name rc v ++ nvMessage 0 (exHeader n) (exPayload t) ++ rawMessage rc v (exHeader n) (exPayload t)) ∧
      st'.heap.live = [] ∧ ExVerdict env alg key n t c false rc v := by
  obtain ⟨i, sc, hi⟩ := h.alg
  obtain ⟨a1, a2, -⟩ := parsed_header hn hi
  obtain ⟨b1, b2, -⟩ := parsed_payload hn h.time
  obtain ⟨rc, v, ds, rc', st', an, hseg, e, p, l⟩ := C88_raw (s := s) E A hname gd (exDefined h E A hn hs) h.three (b64Decode_b64 a1) (b64Decode_b64 b1)
  have hc : rc' = 0 := SegCode_unique hseg (Or.inr (Or.inr ⟨_, _, _, h.three, Or.inr ⟨by rw [b64Decode_b64 a1]; simp, by rw [b64Decode_b64 b1]; simp, h.sig, rfl⟩⟩))
  rw [shown_encoded a2, shown_encoded b2, hc] at p
  exact ⟨rc, v, st', e, p, l (h.few hn).1, exAnswer h hn ha an⟩

/-! ## The program as it is -/

theorem rs256_facts :
    Ex.rs256_decode.JWT = b64 true (exHeader "RS256") ++ 46 :: (b64 true (exPayload 1580340037) ++ 46 :: sigText Ex.rs256_decode.JWT) ∧
    b64Decode true (sigText Ex.rs256_decode.JWT) ≠ none ∧ 0 ∉ Ex.rs256_decode.RSA_PUBLIC_KEY ∧ 0 < Ex.rs256_decode.RSA_PUBLIC_KEY.length ∧
    Ex.rs256_decode.RSA_PUBLIC_KEY.length < L8W8JWT_MAX_KEY_SIZE ∧ 0 ∉ Ex.rs256_decode.JWT ∧ 0 < Ex.rs256_decode.JWT.length ∧
    Ex.rs256_decode.JWT.length < 1500 ∧ NameOk "rs256" := by
  unfold NameOk
  decide +kernel

theorem rs256_token : ExToken Ex.rs256_decode.JWT "RS256" 1580340037 (sigText Ex.rs256_decode.JWT) :=
  ⟨⟨3, _, rfl⟩, by unfold TimeOk; omega, rs256_facts.1, rs256_facts.2.1⟩

theorem rs256_args (hf : 4000 ≤ fuel) : ExDecArgs fuel 3 Ex.rs256_decode.RSA_PUBLIC_KEY Ex.rs256_decode.JWT := by
  obtain ⟨-, -, h1, h2, h3, h4, h5, h6, -⟩ := rs256_facts
  exact ⟨by omega, by omega, ⟨h1, h2, h3⟩, ⟨h4, h5, by omega⟩⟩

theorem rs256_fits (d : Bytes) : SigFits env (exDecRequest 3 key jwt false false) d :=
  ⟨fun _ _ h => (by cases h), fun _ _ _ h => (by cases h), fun _ _ _ _ _ _ h => (by cases h), fun _ h => (by cases h)⟩

/-- **C88** examples/rs256/decode.c as it is, under any crypto library and `checknum` as described, at any time, where no allocation fails. -/
theorem C88_program (E : ExDecEnv env 3) (hf : 4000 ≤ fuel) (gd : s.good) (hn : NumsOk env.checknum) :
    ∃ rc v st', runMain env fuel Ex.rs256_decode s = .ok (.int 0, st') ∧
      st'.printed = some (decMessage "rs256" rc v ++ nvMessage 0 (exHeader "RS256") (exPayload 1580340037) ++
        rawMessage rc v (exHeader "RS256") (exPayload 1580340037)) ∧ st'.heap.live = [] ∧
      ExVerdict env 3 Ex.rs256_decode.RSA_PUBLIC_KEY "RS256" 1580340037 (sigText Ex.rs256_decode.JWT) false rc v := by
  rw [decode_rs256_eq]
  exact C88_token E (rs256_args hf) rs256_facts.2.2.2.2.2.2.2.2 gd hn rs256_token rfl fun d _ => rs256_fits d

/-- The same program without memory: NULL is given to `%s`. -/
theorem C88_lowmem_false : ∃ s, fault (runMain toy 4000 Ex.rs256_decode s) = some (.ub .nullDeref) :=
  ⟨{ calm with failAlloc := fun _ => true }, by decide +kernel⟩

/-- With the token `a.b.c` too (`C88_undecodable_false`): a text of one letter stands for nothing. -/
example : fault (runMain toy 4000 (Ex.decodeRawMain 0 [] (str "secret") (str "a.b.c") (decFormat "hs256")) calm) = some (.ub .nullDeref) := by decide +kernel

def shownBy (x : Except Err (Val × St)) : Option Bytes :=
  match x with
  | .ok (_, st) => st.printed
  | .error _ => none

/-- The texts of C88 in a run: the payload `eyJhIjoxfU` is `{"a":1}` and bits that are not used, which are printed as `@` (C07); the signature is
wrong, and four claims are not there. -/
example : shownBy (runMain toy 4000 (Ex.decodeRawMain 0 [] (str "secret")
      (b64 true (str hdr1) ++ str ".eyJhIjoxfU." ++ b64 true (List.replicate 32 1)) (decFormat "hs256")) calm) =
    some (str "\nl8w8jwt_decode_hs256 function returned successfully (code 0).\n\nValidation result: \n211\n" ++
      str "\nl8w8jwt_decode_raw_no_validation_rs256 function returned successfully (code 0).\n\nValidation result: \nN.A.\n\nHeader: {\"alg\":\"HS256\"}\n\nPayload: {\"a\":1}@\n" ++
      str "\nl8w8jwt_decode_raw_rs256 function returned successfully (code 0).\n\nValidation result: \n211\n\nHeader: {\"alg\":\"HS256\"}\n\nPayload: {\"a\":1}@\n") := by
  decide +kernel

end

end L8w8jwt.C
