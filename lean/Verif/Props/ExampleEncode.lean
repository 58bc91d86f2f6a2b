import Verif.C.ExRun
import Verif.Props.TextEncode
/-!
# C84: the programs examples/*/encode.c

The statements are about executions of the texts of these programs, from the start to the end, and of the texts of the functions of
/repo/src they call.
-/

namespace L8w8jwt.C

open Spec

/-! ## The programs -/

/-- The message of examples/*/encode.c with the name of the algorithm. -/
def encFormat (name : String) : Bytes :=
  str "\nl8w8jwt_encode_" ++ str name ++ str " function returned %s (code %d).\n\nCreated token: \n%s\n"

/-- The programs, and for each of them the algorithm it asks for, the name in its message, and its key. -/
def encodeExamples : List (CFun × Int × String × Bytes) :=
  [(Ex.hs256_encode, 0, "hs256", str "test key"),
   (Ex.hs384_encode, 1, "hs384", str "test key"),
   (Ex.hs512_encode, 2, "hs512", str "test key"),
   (Ex.rs256_encode, 3, "rs256", Ex.rs256_encode.RSA_PRIVATE_KEY),
   (Ex.rs384_encode, 4, "rs384", Ex.rs384_encode.RSA_PRIVATE_KEY),
   (Ex.rs512_encode, 5, "rs512", Ex.rs512_encode.RSA_PRIVATE_KEY),
   (Ex.ps256_encode, 6, "ps256", Ex.ps256_encode.RSA_PRIVATE_KEY),
   (Ex.ps384_encode, 7, "ps384", Ex.ps384_encode.RSA_PRIVATE_KEY),
   (Ex.ps512_encode, 8, "ps512", Ex.ps512_encode.RSA_PRIVATE_KEY),
   (Ex.es256_encode, 9, "es256", Ex.es256_encode.ECDSA_PRIVATE_KEY),
   (Ex.es384_encode, 10, "es384", Ex.es384_encode.ECDSA_PRIVATE_KEY),
   (Ex.es512_encode, 11, "es512", Ex.es512_encode.ECDSA_PRIVATE_KEY),
   (Ex.es256k_encode, 12, "es256k", Ex.es256k_encode.ECDSA_PRIVATE_KEY),
   (Ex.eddsa_encode, 13, "eddsa", Ex.eddsa_encode.ED25519_PRIVATE_KEY)]

/-- All of them are one text but for algorithm, key and message. -/
theorem encodeExamples_eq :
    encodeExamples.map (·.1) = encodeExamples.map fun x => Ex.encodeMain x.2.1 x.2.2.2 (encFormat x.2.2.1) := rfl

/-- A string literal as the functions see it. -/
def exLit (t : String) : Ptr := some ⟨0, str t ++ [0]⟩

/-- A claim with literals for key and value. -/
def exClaim (k v : String) (type : Int) : Claim := ⟨exLit k, (str k).length, exLit v, (str v).length, type⟩

/-- What the programs ask for. -/
def exRequest (alg : Int) (key : Bytes) (now : Int) : EncParams where
  alg := alg
  sub := exLit "Gordon Freeman"
  subLength := 14
  iss := exLit "Black Mesa"
  issLength := 10
  aud := exLit "Administrator"
  audLength := 13
  iat := now
  exp := now + 600
  headerClaims := some [exClaim "kid" "some-key-id-here-012345" 0]
  headerClaimsCount := 1
  payloadClaims := some [exClaim "ctx" "Unforseen Consequences" 0, exClaim "age" "27" 1, exClaim "size" "1.85" 2,
    exClaim "alive" "true" 3, exClaim "nulltest" "null" 4]
  payloadClaimsCount := 5
  secretKey := some (key ++ [0])
  secretKeyLength := key.length
  outNull := false
  outLengthNull := false

/-- A pointer to a literal. -/
abbrev litV (t : Bytes) : Val := .ptr (some (.lit t, 0))

/-- The pointers of the request. -/
def exReqPtrs (key : Bytes) : EncPtrs where
  iss := litV (str "Black Mesa")
  sub := litV (str "Gordon Freeman")
  aud := litV (str "Administrator")
  jti := .int 0
  hc := .ptr (some (.stack 2, 0))
  pc := .ptr (some (.stack 3, 0))
  key := litV key
  pw := .int 0
  out := .ptr (some (.stack 0, 0))
  outLength := .ptr (some (.stack 1, 0))

/-- The members of a claim. -/
def exClaimCells (k v : String) (type : Int) : List Val :=
  [litV (str k), .int (str k).length, litV (str v), .int (str v).length, .int type]

/-- The local objects when `l8w8jwt_encode` is called. -/
def exEncObjs (alg : Int) (key : Bytes) (now : Int) : List (List Val) :=
  [[.undef], [.undef], exClaimCells "kid" "some-key-id-here-012345" 0,
   exClaimCells "ctx" "Unforseen Consequences" 0 ++ exClaimCells "age" "27" 1 ++ exClaimCells "size" "1.85" 2 ++
     exClaimCells "alive" "true" 3 ++ exClaimCells "nulltest" "null" 4,
   encCells (exRequest alg key now) (exReqPtrs key)]

/-- The rest of the program. -/
def encTail (fmt : Bytes) : Stmt :=
  .seq (.exp (.set 5 (.call "l8w8jwt_encode" (.cons (.loc 4) .nil))))
    (.seq (.exp (.call "printf" (.cons (.str fmt) (.cons (.cond (.cmp .eq (.loc 5) (.num 0)) (.str (str "successfully")) (.str []))
      (.cons (.loc 5) (.cons (.load .ptr (.loc 0)) .nil))))))
    (.seq (.exp (.call "l8w8jwt_free" (.cons (.load .ptr (.loc 0)) .nil))) (.ret (.num 0))))

/-- The local variables at that point. -/
def encVars (r : Val) : List Val :=
  [.ptr (some (.stack 0, 0)), .ptr (some (.stack 1, 0)), .ptr (some (.stack 2, 0)), .ptr (some (.stack 3, 0)), .ptr (some (.stack 4, 0)), r]

/-- What has to hold for the beginning of the program. -/
def encNeed (now : Int) (key : Bytes) : List Need :=
  [.noNul key, .range (now + 600), .noNul (str "Administrator"), .noNul (str "Black Mesa"), .noNul (str "Gordon Freeman"), .noNul (str "null"),
   .noNul (str "nulltest"), .noNul (str "true"), .noNul (str "alive"), .noNul (str "1.85"), .noNul (str "size"), .noNul (str "27"),
   .noNul (str "Unforseen Consequences"), .noNul (str "some-key-id-here-012345")]

theorem encode_prefix (alg now : Int) (key fmt : Bytes) :
    symRun now 53 (Ex.encodeMain alg key fmt).body ⟨List.replicate 6 .undef, [], []⟩ =
      some (⟨encVars .undef, exEncObjs alg key now, encNeed now key⟩, encTail fmt) := by
  kernel_rfl

theorem encNeed_ok {now : Int} {key : Bytes} (h : -9223372036854775808 ≤ now ∧ now + 600 < 9223372036854775808) (hk : 0 ∉ key) :
    ∀ x ∈ encNeed now key, x.Holds := by
  intro x hx
  simp only [encNeed, List.mem_cons, List.not_mem_nil, or_false] at hx
  rcases hx with rfl | rfl | rfl | rfl | rfl | rfl | rfl | rfl | rfl | rfl | rfl | rfl | rfl | rfl
  · exact hk
  · exact ⟨by omega, h.2⟩
  all_goals
    unfold Need.Holds
    decide

/-- The state when `l8w8jwt_encode` is called. -/
def encSt (alg now : Int) (key : Bytes) : St := SymSt.st ⟨encVars .undef, exEncObjs alg key now, encNeed now key⟩ ⟨0, []⟩ []

variable {env : Env} {fuel : Nat} {s : Sched} {alg : Int} {key : Bytes} {name : String}

theorem encode_start {fmt : Bytes} (h : -9223372036854775808 ≤ env.now ∧ env.now + 600 < 9223372036854775808) (hk : 0 ∉ key) :
    exec (mx env fuel 4) (Ex.encodeMain alg key fmt).body .run s { begin with fr := [] ++ List.replicate (6 - 0) .undef } =
      exec (mx env fuel 4) (encTail fmt) .run s (encSt alg env.now key) :=
  (symRun_sound 53 _ _ _ _ (encode_prefix alg env.now key fmt) (encNeed_ok h hk)).2

/-- The call of `l8w8jwt_encode`. -/
theorem encode_call (h : -9223372036854775808 ≤ env.now ∧ env.now + 600 < 9223372036854775808)
    (hf : 20000 ≤ fuel) (ha : -2147483648 ≤ alg ∧ alg < 2147483648) (hk : key.length < 18446744073709551616) :
    EncCall env fuel (encSt alg env.now key) (.stack 4) (exRequest alg key env.now) (exReqPtrs key) (.stack 0) (.stack 1) where
  wf := layMem_wf _ _ _
  params := by
    have hl : ∀ m t, Pts globs m (nul (litV t)) (some (t ++ [0])) := fun m t => pts_lit m t
    refine ⟨rfl, rfl, hl _ _, hl _ _, hl _ _, rfl, ?_, ?_, hl _ _, rfl, ⟨0, .stack 0, 0, _, rfl, rfl, rfl, rfl⟩,
      ⟨0, .stack 1, 0, _, rfl, rfl, rfl, rfl⟩, ha, ?_, ?_, ?_, ?_, ?_, ?_, ?_, ?_, ?_, hk, ?_⟩
    · refine ⟨.stack 2, 0, _, rfl, rfl, by decide, fun i c hc => ?_⟩
      match i, hc with
      | 0, hc => cases hc; exact ⟨_, _, rfl, rfl, rfl, rfl, rfl, hl _ _, hl _ _, by decide, by decide, by decide, by decide⟩
      | i + 1, hc => cases hc
    · refine ⟨.stack 3, 0, _, rfl, rfl, by decide, fun i c hc => ?_⟩
      match i, hc with
      | 0, hc => cases hc; exact ⟨_, _, rfl, rfl, rfl, rfl, rfl, hl _ _, hl _ _, by decide, by decide, by decide, by decide⟩
      | 1, hc => cases hc; exact ⟨_, _, rfl, rfl, rfl, rfl, rfl, hl _ _, hl _ _, by decide, by decide, by decide, by decide⟩
      | 2, hc => cases hc; exact ⟨_, _, rfl, rfl, rfl, rfl, rfl, hl _ _, hl _ _, by decide, by decide, by decide, by decide⟩
      | 3, hc => cases hc; exact ⟨_, _, rfl, rfl, rfl, rfl, rfl, hl _ _, hl _ _, by decide, by decide, by decide, by decide⟩
      | 4, hc => cases hc; exact ⟨_, _, rfl, rfl, rfl, rfl, rfl, hl _ _, hl _ _, by decide, by decide, by decide, by decide⟩
      | i + 5, hc => cases hc
    all_goals simp only [exRequest] <;> omega
  fits := by
    have e : encBytes (exRequest alg key env.now) = encBytes (exRequest 0 [] 0) := rfl
    have e' : encBytes (exRequest 0 [] 0) < 20000 := by decide +kernel
    refine ⟨by omega, by omega, ?_, ?_⟩ <;> simp only [exRequest] <;> omega
  out := rfl
  outLength := rfl
  outCell := ⟨_, rfl⟩
  outLengthCell := ⟨_, rfl⟩
  apart := by simp

/-- What is printed in case of success. -/
def encMessage (name : String) (tok : Bytes) : Bytes :=
  str "\nl8w8jwt_encode_" ++ str name ++ str " function returned successfully (code 0).\n\nCreated token: \n" ++ tok ++ str "\n"

theorem encFormat_eq (name : String) : encFormat name = (str "\nl8w8jwt_encode_" ++ str name ++ str " function returned ") ++
    37 :: 115 :: (str " (code " ++ 37 :: 100 :: (str ").\n\nCreated token: \n" ++ 37 :: 115 :: (str "\n" ++ []))) := by
  have : str " function returned %s (code %d).\n\nCreated token: \n%s\n" = str " function returned " ++
      37 :: 115 :: (str " (code " ++ 37 :: 100 :: (str ").\n\nCreated token: \n" ++ 37 :: 115 :: (str "\n" ++ []))) := by decide
  rw [encFormat, this]
  simp only [List.append_assoc]

/-- The name contains neither NUL nor `%`. -/
def NameOk (name : String) : Prop := 0 ∉ str name ∧ 37 ∉ str name

theorem encFormat_nul (h : NameOk name) : 0 ∉ encFormat name := by
  simp only [encFormat, List.mem_append, not_or]
  exact ⟨⟨by decide, h.1⟩, by decide⟩

theorem encFormat_pre (h : NameOk name) : 37 ∉ str "\nl8w8jwt_encode_" ++ str name ++ str " function returned " := by
  simp only [List.mem_append, not_or]
  exact ⟨⟨by decide, h.2⟩, by decide⟩

theorem tail_call {st st1 : St} {rc : Nat} (h4 : st.fr = encVars .undef)
    (hr : runFun (cx env fuel 3) Src.l8w8jwt_encode [.ptr (some (.stack 4, 0))] s st = .ok (.int rc, st1)) (hf : st1.fr = st.fr) :
    eval (mx env fuel 4) (.set 5 (.call "l8w8jwt_encode" (.cons (.loc 4) .nil))) s st = .ok (.int rc, { st1 with fr := encVars (.int rc) }) := by
  have h : st.fr.getD 4 .undef = .ptr (some (.stack 4, 0)) := by rw [h4]; rfl
  simp only [eval, evalArgs, X.bind_apply, getLoc_apply, h, X.pure_apply]
  rw [mx_call (by decide), cx_fun _ _ _ rfl, hr]
  simp only [setLoc_apply, hf, h4]
  rfl

theorem printed_done {st : St} {tok : Bytes} {v : Val} (hn : NameOk name) (hp : Pts globs st.mem v (some (tok ++ [0])))
    (ho : st.mem (.ext 0) = some (cells [])) :
    xPrintf (lctx env) [litV (encFormat name), litV (if (0 : Int) = 0 then str "successfully" else []), .int 0, v] s st =
      .ok (.undef, { st with mem := upd st.mem (.ext 0) (some (cells (encMessage name (cString tok)))) }) := by
  have hs := strlen_zero tok [0] (Or.inr ⟨[], rfl⟩)
  have e : formatted (lctx env) 0 (encFormat name) [litV (str "successfully"), .int 0, v] s st = .ok (encMessage name (cString tok), st) := by
    have h3 : formatted (lctx env) 0 (37 :: 115 :: (str "\n" ++ [])) [v] s st = .ok (cString tok ++ str "\n", st) := by
      rw [formatted_s hp hs.1, hs.2]
      rfl
    have h2 := formatted_lit (a := str ").\n\nCreated token: \n") (by decide) h3
    have h1 : formatted (lctx env) 0 (37 :: 100 :: (str ").\n\nCreated token: \n" ++ 37 :: 115 :: (str "\n" ++ []))) [.int 0, v] s st =
        .ok (str "0" ++ (str ").\n\nCreated token: \n" ++ (cString tok ++ str "\n")), st) := by
      rw [formatted_d, h2]
      rfl
    have h0 := formatted_lit (a := str " (code ") (by decide) h1
    rw [encFormat_eq]
    have hk : formatted (lctx env) 0 (37 :: 115 :: (str " (code " ++ 37 :: 100 :: (str ").\n\nCreated token: \n" ++ 37 :: 115 :: (str "\n" ++ []))))
        [litV (str "successfully"), .int 0, v] s st =
          .ok (str "successfully" ++ (str " (code " ++ (str "0" ++ (str ").\n\nCreated token: \n" ++ (cString tok ++ str "\n")))), st) := by
      rw [formatted_s (pts_lit _ _) (strlen_lit _ (by decide)), h0, List.take_left]
    have hm : str " function returned successfully (code 0).\n\nCreated token: \n" =
        str " function returned " ++ (str "successfully" ++ (str " (code " ++ (str "0" ++ str ").\n\nCreated token: \n"))) := by decide
    rw [formatted_lit (encFormat_pre hn) hk, encMessage, hm]
    simp only [List.append_assoc]
  exact printf_run (out := []) (encFormat_nul hn) ho e

theorem tail_done {st st1 : St} {tok : Bytes} (hn : NameOk name) (h4 : st.fr = encVars .undef) (hw : Wf st) (h5 : st.stk = 5)
    (ho : st.mem (.ext 0) = some (cells [])) (hl : st.heap.live = []) (hh : ∀ i, st.mem (.heap i) = none)
    (hr : runFun (cx env fuel 3) Src.l8w8jwt_encode [.ptr (some (.stack 4, 0))] s st = .ok (.int (0 : Nat), st1))
    (T : TokenAt st st1 (.stack 0) (.stack 1) (some tok)) :
    ∃ st', exec (mx env fuel 4) (encTail (encFormat name)) .run s st = .ok (.ret (.int 0), st') ∧
      st'.mem (.ext 0) = some (cells (encMessage name (cString tok))) ∧ st'.heap.live = [] ∧ ∀ i, st'.mem (.heap i) = none := by
  obtain ⟨t1, t2, i, g1, g2, g3, g4, g5, g6⟩ := T
  have e1 := tail_call (s := s) h4 hr t1
  have hx : st1.mem (.ext 0) = some (cells []) := by rw [g6 _ (by simp) (by simp) (by simp), ho]
  have hp : Pts globs st1.mem (.ptr (some (.heap i, 0))) (some (tok ++ [0])) :=
    ⟨.heap i, 0, _, rfl, (cont_own rfl).trans g4, by simp, by rw [bytesFrom_cells]; rfl⟩
  have e2 : eval (mx env fuel 4) (.call "printf" (.cons (.str (encFormat name)) (.cons (.cond (.cmp .eq (.loc 5) (.num 0)) (.str (str "successfully")) (.str []))
      (.cons (.loc 5) (.cons (.load .ptr (.loc 0)) .nil))))) s { st1 with fr := encVars (.int (0 : Nat)) } = .ok (.undef, { st1 with
        fr := encVars (.int (0 : Nat)), mem := upd st1.mem (.ext 0) (some (cells (encMessage name (cString tok)))) }) := by
    have hv := eval_load (c := mx env fuel 4) (t := .ptr) (i := 0) (s := s) (st := { st1 with fr := encVars (.int (0 : Nat)) }) rfl rfl g2 rfl
    have hc := eval_success (c := mx env fuel 4) (i := 5) (rc := 0) (s := s) (st := { st1 with fr := encVars (.int (0 : Nat)) }) rfl
    simp only [eval, evalArgs, X.bind_apply, X.pure_apply, getLoc_apply] at hv hc ⊢
    simp only [hc, hv]
    exact printed_done (st := { st1 with fr := encVars (.int (0 : Nat)) }) hn hp hx
  have hf : L8w8jwt.free (some ⟨i, []⟩) s st1.heap = .ok ((), { st1.heap with live := [] }) := by
    simp only [L8w8jwt.free, g5, hl]
    simp
  have e3 : eval (mx env fuel 4) (.call "l8w8jwt_free" (.cons (.load .ptr (.loc 0)) .nil)) s { st1 with
        fr := encVars (.int (0 : Nat)), mem := upd st1.mem (.ext 0) (some (cells (encMessage name (cString tok)))) } = .ok (.undef,
      { st1 with fr := encVars (.int (0 : Nat)), heap := { st1.heap with live := [] },
                 mem := upd (upd st1.mem (.ext 0) (some (cells (encMessage name (cString tok))))) (.heap i) none }) := by
    have hv := eval_load (c := mx env fuel 4) (t := .ptr) (i := 0) (s := s) (st := { st1 with
        fr := encVars (.int (0 : Nat)), mem := upd st1.mem (.ext 0) (some (cells (encMessage name (cString tok)))) }) rfl rfl
        (show upd st1.mem (.ext 0) (some (cells (encMessage name (cString tok)))) (.stack 0) = _ by rw [upd_ne _ _ (by simp)]; exact g2) rfl
    simp only [eval, evalArgs, X.bind_apply, X.pure_apply, getLoc_apply] at hv ⊢
    simp only [hv]
    rw [mx_call (by decide)]
    obtain ⟨v, st2, e, rfl, rfl⟩ := wp_l8freeP env fuel 3 (P := some ⟨i, []⟩) (s := s) (st := { st1 with
        fr := encVars (.int (0 : Nat)), mem := upd st1.mem (.ext 0) (some (cells (encMessage name (cString tok)))) })
        (Q := fun v st2 => v = .undef ∧ st2 = _) hf (fun j hj => by
          have hj : st1.stk ≤ j := hj
          show upd st1.mem (.ext 0) (some (cells (encMessage name (cString tok)))) (.stack j) = none
          rw [upd_ne _ _ (by simp), g6 _ (by simp; omega) (by simp; omega) (by simp)]
          exact hw.stack j (by omega)) ⟨rfl, rfl⟩
    exact e
  refine ⟨_, (exec_exp e1).trans ((exec_exp e2).trans ((exec_exp e3).trans rfl)), ?_, rfl, fun j => ?_⟩
  · show upd (upd st1.mem (.ext 0) (some (cells (encMessage name (cString tok))))) (.heap i) none (.ext 0) = _
    rw [upd_ne _ _ (by simp), upd_same]
  · show upd (upd st1.mem (.ext 0) (some (cells (encMessage name (cString tok))))) (.heap i) none (.heap j) = _
    by_cases hj : j = i
    · rw [hj, upd_same]
    · rw [upd_ne _ _ (by simp [hj]), upd_ne _ _ (by simp), g6 _ (by simp) (by simp) (by simp [hj]), hh]

theorem tail_undef {st st1 : St} {rc : Nat} (h4 : st.fr = encVars .undef) (h0 : st.mem (.stack 0) = some [.undef])
    (hr : runFun (cx env fuel 3) Src.l8w8jwt_encode [.ptr (some (.stack 4, 0))] s st = .ok (.int rc, st1)) (t1 : st1.fr = st.fr)
    (g1 : st1.mem (.stack 0) = st.mem (.stack 0)) : exec (mx env fuel 4) (encTail (encFormat name)) .run s st = .error .uninit := by
  have e1 := tail_call (s := s) h4 hr t1
  have hc := eval_success (c := mx env fuel 4) (i := 5) (rc := rc) (s := s) (st := { st1 with fr := encVars (.int rc) }) rfl
  have hv := eval_load_undef (c := mx env fuel 4) (t := .ptr) (i := 0) (s := s) (st := { st1 with fr := encVars (.int rc) }) rfl rfl (g1.trans h0)
  refine (exec_exp e1).trans (exec_exp_error ?_)
  simp only [eval, evalArgs, X.bind_apply, X.pure_apply, getLoc_apply] at hv hc ⊢
  simp only [hc, hv]

/-- If `l8w8jwt_encode` fails, `jwt` is read although it has no value, or NULL is given to `%s`. -/
theorem tail_failed {st st1 : St} {rc : Nat} (hn : NameOk name) (h4 : st.fr = encVars .undef) (h0 : st.mem (.stack 0) = some [.undef])
    (hr : runFun (cx env fuel 3) Src.l8w8jwt_encode [.ptr (some (.stack 4, 0))] s st = .ok (.int rc, st1))
    (T : TokenAt st st1 (.stack 0) (.stack 1) none) (h : rc ≠ 0) :
    exec (mx env fuel 4) (encTail (encFormat name)) .run s st = .error .uninit ∨
      exec (mx env fuel 4) (encTail (encFormat name)) .run s st = .error (.ub .nullDeref) := by
  obtain ⟨t1, t2, g1, g2, g3⟩ := T
  rcases g1 with g1 | g1
  · exact Or.inl (tail_undef h4 h0 hr t1 g1)
  · right
    have e1 := tail_call (s := s) h4 hr t1
    have hc := eval_success (c := mx env fuel 4) (i := 5) (rc := rc) (s := s) (st := { st1 with fr := encVars (.int rc) }) rfl
    rw [if_neg (by omega)] at hc
    have hv := eval_load (c := mx env fuel 4) (t := .ptr) (i := 0) (s := s) (st := { st1 with fr := encVars (.int rc) }) rfl rfl g1 rfl
    refine (exec_exp e1).trans (exec_exp_error ?_)
    simp only [eval, evalArgs, X.bind_apply, X.pure_apply, getLoc_apply] at hv hc ⊢
    simp only [hc, hv]
    refine printf_error (f := encFormat name) (encFormat_nul hn) ?_
    rw [encFormat_eq]
    refine formatted_lit_error (encFormat_pre hn) ?_
    rw [formatted_s (pts_lit _ _) (strlen_lit _ (by decide)), formatted_lit_error (by decide)]
    exact formatted_d.trans (by rw [formatted_lit_error (by decide) formatted_null])

/-! ## What the programs ask for -/

/-- The header of the token. -/
def exHeader (alg : String) : Bytes :=
  str "{\"alg\":\"" ++ str alg ++ str "\",\"typ\":\"JWT\"" ++
    (if alg = "ES256K" then str ",\"kty\":\"EC\",\"crv\":\"secp256k1\"" else if alg = "EdDSA" then str ",\"kty\":\"EC\",\"crv\":\"Ed25519\"" else []) ++
    str ",\"kid\":\"some-key-id-here-012345\"}"

/-- The payload of the token: it expires ten minutes after the time at which it is issued. -/
def exPayload (now : Int) : Bytes :=
  str "{\"iat\":" ++ natText now.toNat ++ str ",\"exp\":" ++ natText (now.toNat + 600) ++
    str (",\"sub\":\"Gordon Freeman\",\"iss\":\"Black Mesa\",\"aud\":\"Administrator\"" ++
      ",\"ctx\":\"Unforseen Consequences\",\"age\":27,\"size\":1.85,\"alive\":true,\"nulltest\":null}")

theorem writtenPayload_ex {now : Int} (h : 0 < now ∧ now + 600 < 9223372036854775808) :
    writtenPayload (exRequest alg key now) = exPayload now := by
  have h1 : toU64 now = now.toNat := by unfold toU64; omega
  have h2 : toU64 (now + 600) = now.toNat + 600 := by unfold toU64; omega
  have n0 : timeMember timeText "nbf" (exRequest alg key now).nbf = [] := rfl
  have n1 : timeMember timeText "iat" now = [str "\"iat\":" ++ natText now.toNat] := by
    rw [timeMember, if_neg (by omega), timeText, h1]; rfl
  have n2 : timeMember timeText "exp" (now + 600) = [str "\"exp\":" ++ natText (now.toNat + 600)] := by
    rw [timeMember, if_neg (by omega), timeText, h2]; rfl
  have r1 : strMember "sub" (exLit "Gordon Freeman") 14 = [str "\"sub\":\"Gordon Freeman\""] := by decide +kernel
  have r2 : strMember "iss" (exLit "Black Mesa") 10 = [str "\"iss\":\"Black Mesa\""] := by decide +kernel
  have r3 : strMember "aud" (exLit "Administrator") 13 = [str "\"aud\":\"Administrator\""] := by decide +kernel
  have r4 : strMember "jti" (exRequest alg key now).jti (exRequest alg key now).jtiLength = [] := rfl
  have x : extra (exRequest 0 [] 0).payloadClaims 5 = [str "\"ctx\":\"Unforseen Consequences\"", str "\"age\":27", str "\"size\":1.85",
      str "\"alive\":true", str "\"nulltest\":null"] := by decide +kernel
  have g : registeredWith timeText (exRequest alg key now) = [str "\"iat\":" ++ natText now.toNat, str "\"exp\":" ++ natText (now.toNat + 600),
      str "\"sub\":\"Gordon Freeman\"", str "\"iss\":\"Black Mesa\"", str "\"aud\":\"Administrator\""] := by
    rw [registeredWith, n0, r4]
    show timeMember timeText "iat" now ++ [] ++ timeMember timeText "exp" (now + 600) ++ strMember "sub" (exLit "Gordon Freeman") 14 ++
      strMember "iss" (exLit "Black Mesa") 10 ++ strMember "aud" (exLit "Administrator") 13 ++ [] = _
    rw [n1, n2, r1, r2, r3]
    rfl
  have hs : sep (exRequest alg key now) := Or.inl (by simp only [exRequest]; omega)
  rw [writtenPayload, g]
  show payloadForm _ _ (extra (exRequest 0 [] 0).payloadClaims 5) = _
  rw [x, payloadForm, if_pos (show 0 < (exRequest alg key now).payloadClaimsCount from Nat.succ_pos 4), if_pos hs]
  have l : str "," ++ (str "\"sub\":\"Gordon Freeman\"" ++ (str "," ++ (str "\"iss\":\"Black Mesa\"" ++ (str "," ++ (str "\"aud\":\"Administrator\"" ++
      (str "," ++ (str "\"ctx\":\"Unforseen Consequences\"" ++ (str "," ++ (str "\"age\":27" ++ (str "," ++ (str "\"size\":1.85" ++
      (str "," ++ (str "\"alive\":true" ++ (str "," ++ (str "\"nulltest\":null" ++ str "}"))))))))))))))) =
      str (",\"sub\":\"Gordon Freeman\",\"iss\":\"Black Mesa\",\"aud\":\"Administrator\"" ++
      ",\"ctx\":\"Unforseen Consequences\",\"age\":27,\"size\":1.85,\"alive\":true,\"nulltest\":null}") := by decide +kernel
  simp only [commaSep, List.append_assoc]
  rw [l, exPayload]
  simp only [List.append_assoc]
  rfl

theorem mem_algs {x : String × Scheme} (h : alg? alg = some x) : x ∈ algs := by
  unfold alg? at h
  split at h
  · cases h
  · exact List.mem_of_getElem? h

theorem writtenHeader_ex {now : Int} {sch : Scheme} (h : alg? alg = some (n, sch)) : writtenHeader (exRequest alg key now) n = exHeader n := by
  have x : headerTail (exRequest alg key now) (extra (exRequest alg key now).headerClaims (exRequest alg key now).headerClaimsCount) =
      str ",\"kid\":\"some-key-id-here-012345\"}" := by
    show headerTail (exRequest 0 [] 0) (extra (exRequest 0 [] 0).headerClaims (exRequest 0 [] 0).headerClaimsCount) = _
    decide +kernel
  rw [writtenHeader, x, exHeader]
  congr 1
  have a : ∀ x ∈ algs, str "{" ++ commaSep (headerBase x.1) = str "{\"alg\":\"" ++ str x.1 ++ str "\",\"typ\":\"JWT\"" ++
      (if x.1 = "ES256K" then str ",\"kty\":\"EC\",\"crv\":\"secp256k1\"" else if x.1 = "EdDSA" then str ",\"kty\":\"EC\",\"crv\":\"Ed25519\"" else []) := by
    decide +kernel
  exact a (n, sch) (mem_algs h)

theorem exPayload_length {now : Int} (h : 0 < now ∧ now + 600 < 9223372036854775808) : (exPayload now).length ≤ 250 := by
  have h1 := (natText_length now.toNat 19 (by decide) (by omega)).2
  have h2 := (natText_length (now.toNat + 600) 19 (by decide) (by omega)).2
  have h3 : (str (",\"sub\":\"Gordon Freeman\",\"iss\":\"Black Mesa\",\"aud\":\"Administrator\"" ++
      ",\"ctx\":\"Unforseen Consequences\",\"age\":27,\"size\":1.85,\"alive\":true,\"nulltest\":null}")).length ≤ 180 := by decide +kernel
  have h4 : (str "{\"iat\":").length = 7 ∧ (str ",\"exp\":").length = 7 := by decide +kernel
  simp only [exPayload, List.length_append]
  omega

theorem exHeader_length {sch : Scheme} (h : alg? alg = some (n, sch)) : (exHeader n).length ≤ 250 := by
  have a : ∀ x ∈ algs, (exHeader x.1).length ≤ 250 := by decide +kernel
  exact a (n, sch) (mem_algs h)

/-- The request is one for which encoding is defined. -/
theorem exRequest_ok {now : Int} (h : 0 < now ∧ now + 600 < 9223372036854775808) (hk : key.length < L8W8JWT_MAX_KEY_SIZE) :
    TextsReadable (exRequest alg key now) ∧ KeyReadable (exRequest alg key now) ∧ EncDefined env (exRequest alg key now) := by
  have hm : ∀ c ∈ [exClaim "kid" "some-key-id-here-012345" 0, exClaim "ctx" "Unforseen Consequences" 0, exClaim "age" "27" 1,
      exClaim "size" "1.85" 2, exClaim "alive" "true" 3, exClaim "nulltest" "null" 4], ∃ m, member c = some m ∧ m.ok ∧ m.ascii := by
    intro c hc
    simp only [List.mem_cons, List.not_mem_nil, or_false] at hc
    rcases hc with rfl | rfl | rfl | rfl | rfl | rfl <;>
      exact ⟨_, rfl, by unfold Member.ok argOk; decide +kernel, by unfold Member.ascii; decide +kernel⟩
  have ho : ∀ c ∈ [exClaim "kid" "some-key-id-here-012345" 0, exClaim "ctx" "Unforseen Consequences" 0, exClaim "age" "27" 1,
      exClaim "size" "1.85" 2, exClaim "alive" "true" 3, exClaim "nulltest" "null" 4], claimOk c := fun c hc =>
    have ⟨m, e, h, _⟩ := hm c hc
    Or.inr ⟨m, e, h⟩
  have ha : ∀ c ∈ [exClaim "kid" "some-key-id-here-012345" 0, exClaim "ctx" "Unforseen Consequences" 0, exClaim "age" "27" 1,
      exClaim "size" "1.85" 2, exClaim "alive" "true" 3, exClaim "nulltest" "null" 4], ∀ m, member c = some m → m.ascii := fun c hc m hm' =>
    have ⟨m', e, _, h⟩ := hm c hc
    have : m = m' := Option.some.inj (hm'.symm.trans e)
    this ▸ h
  have ht : TextsReadable (exRequest 0 [] 0) ∧ TextsAscii (exRequest 0 [] 0) := by
    refine ⟨⟨?_, ?_, ?_, ?_, ?_, ?_⟩, ?_, ?_, ?_⟩
    · rintro b ⟨⟩; exact ⟨by unfold argOk; decide +kernel, nofun⟩
    · rintro b ⟨⟩; exact ⟨by unfold argOk; decide +kernel, nofun⟩
    · rintro b ⟨⟩; exact ⟨by unfold argOk; decide +kernel, nofun⟩
    · rintro b ⟨⟩
    · rintro l ⟨⟩; exact ⟨by decide, fun c hc => ho c (List.mem_append_left _ hc), nofun⟩
    · rintro l ⟨⟩; exact ⟨by decide, fun c hc => ho c (List.mem_cons_of_mem _ hc), nofun⟩
    · intro v n hv b hb
      simp only [List.mem_cons, List.not_mem_nil, or_false, Prod.mk.injEq] at hv
      rcases hv with ⟨rfl, rfl⟩ | ⟨rfl, rfl⟩ | ⟨rfl, rfl⟩ | ⟨rfl, rfl⟩ <;> cases hb <;> decide +kernel
    · exact fun c hc => ha c (List.mem_append_left _ hc)
    · exact fun c hc => ha c (List.mem_cons_of_mem _ hc)
  refine ⟨⟨ht.1.1, ht.1.2, ht.1.3, ht.1.4, ht.1.5, ht.1.6⟩, ⟨⟨_, rfl, by simp [exRequest]⟩, by simp [exRequest]⟩, fun n sch ha =>
    ⟨fun _ => ht.2, ?_, ?_, fun _ _ => Or.inl ?_⟩⟩
  · rw [writtenHeader_ex (alg := alg) ha]
    have := exHeader_length (alg := alg) ha
    unfold b64Fits intMax
    omega
  · rw [writtenPayload_ex h]
    have := exPayload_length h
    unfold b64Fits intMax
    omega
  · simpa [keyBytes, exRequest] using hk

/-! ## C84 -/

/-- The conditions under which the programs are run: the time is after 1970 and can be added to, and loops may have
`fuel` rounds. -/
structure ExEnv (env : Env) (fuel : Nat) : Prop where
  crypto : CryptoOk env.crypto
  time : 0 < env.now ∧ env.now + 600 < 9223372036854775808
  fuel : 20000 ≤ fuel

theorem encodeExamples_facts : ∀ x ∈ encodeExamples, NameOk x.2.2.1 ∧ 0 ∉ x.2.2.2 ∧ x.2.2.2.length < L8W8JWT_MAX_KEY_SIZE ∧
    0 < x.2.2.2.length ∧ 0 ≤ x.2.1 ∧ x.2.1 < 14 := by
  unfold NameOk
  decide +kernel

theorem encodeExamples_main {f : CFun} (hx : (f, alg, name, key) ∈ encodeExamples) : f = Ex.encodeMain alg key (encFormat name) := by
  obtain ⟨i, hi⟩ := List.mem_iff_getElem?.mp hx
  have h := congrArg (fun l => l[i]?) encodeExamples_eq
  simp only [List.getElem?_map, hi, Option.map_some] at h
  exact Option.some.inj h

theorem runMain_ok {f : CFun} {v : Val} {st' : St} (hp : f.params = 0)
    (h : exec (mx env fuel 4) f.body .run s { begin with fr := [] ++ List.replicate (f.slots - 0) .undef } = .ok (.ret v, st')) :
    runMain env fuel f s = .ok (v, { st' with fr := [], mem := dropStack 0 st'.mem, stk := 0 }) := by
  simp only [runMain, runFun, hp]
  rw [h]
  rfl

theorem runMain_error {f : CFun} {x : Err} (hp : f.params = 0)
    (h : exec (mx env fuel 4) f.body .run s { begin with fr := [] ++ List.replicate (f.slots - 0) .undef } = .error x) :
    runMain env fuel f s = .error x := by
  simp only [runMain, runFun, hp]
  rw [h]

theorem encode_ok {tok : Bytes} {st1 : St} (E : ExEnv env fuel) {f : CFun} (hx : (f, alg, name, key) ∈ encodeExamples)
    (hr : runFun (cx env fuel 3) Src.l8w8jwt_encode [.ptr (some (.stack 4, 0))] s (encSt alg env.now key) = .ok (.int (0 : Nat), st1))
    (T : TokenAt (encSt alg env.now key) st1 (.stack 0) (.stack 1) (some tok)) :
    ∃ st', runMain env fuel f s = .ok (.int 0, st') ∧ st'.printed = some (encMessage name (cString tok)) ∧ st'.heap.live = [] := by
  obtain ⟨h1, h2, -⟩ := encodeExamples_facts _ hx
  cases encodeExamples_main hx
  obtain ⟨st', e, a1, a2, a3⟩ := tail_done (env := env) (fuel := fuel) (s := s) h1 rfl (layMem_wf _ _ _) rfl rfl rfl (fun _ => rfl) hr T
  have e0 := encode_start (env := env) (fuel := fuel) (s := s) (alg := alg) (fmt := encFormat name) ⟨by have := E.time; omega, E.time.2⟩ h2
  refine ⟨_, runMain_ok (f := Ex.encodeMain alg key (encFormat name)) rfl (e0.trans e), ?_, a2⟩
  simp only [St.printed, dropStack, a1, Option.map_some, toBytes_cells]

theorem encode_failed {rc : Nat} {st1 : St} (E : ExEnv env fuel) {f : CFun} (hx : (f, alg, name, key) ∈ encodeExamples)
    (hr : runFun (cx env fuel 3) Src.l8w8jwt_encode [.ptr (some (.stack 4, 0))] s (encSt alg env.now key) = .ok (.int rc, st1))
    (T : TokenAt (encSt alg env.now key) st1 (.stack 0) (.stack 1) none) (h : rc ≠ 0) :
    runMain env fuel f s = .error .uninit ∨ runMain env fuel f s = .error (.ub .nullDeref) := by
  obtain ⟨h1, h2, -⟩ := encodeExamples_facts _ hx
  cases encodeExamples_main hx
  have e0 := encode_start (env := env) (fuel := fuel) (s := s) (alg := alg) (fmt := encFormat name) ⟨by have := E.time; omega, E.time.2⟩ h2
  rcases tail_failed (env := env) (fuel := fuel) (s := s) h1 rfl rfl hr T h with e | e
  · exact Or.inl (runMain_error (f := Ex.encodeMain alg key (encFormat name)) rfl (e0.trans e))
  · exact Or.inr (runMain_error (f := Ex.encodeMain alg key (encFormat name)) rfl (e0.trans e))

theorem ex_ready (E : ExEnv env fuel) {f : CFun} (hx : (f, alg, name, key) ∈ encodeExamples) :
    EncCall env fuel (encSt alg env.now key) (.stack 4) (exRequest alg key env.now) (exReqPtrs key) (.stack 0) (.stack 1) ∧
    TextsReadable (exRequest alg key env.now) ∧ KeyReadable (exRequest alg key env.now) ∧ EncDefined env (exRequest alg key env.now) ∧
    validateEncodingParams (some (exRequest alg key env.now)) = L8W8JWT_SUCCESS ∧ (alg? alg).isSome := by
  obtain ⟨-, -, h3, h6, h4, h5⟩ := encodeExamples_facts _ hx
  simp only at h3 h4 h5 h6
  have h7 : L8W8JWT_MAX_KEY_SIZE = 8192 := rfl
  have hc := encode_call ⟨by have := E.time; omega, E.time.2⟩ E.fuel (alg := alg) (key := key)
    ⟨by omega, by omega⟩ (by omega)
  obtain ⟨hr, hk, hd⟩ := exRequest_ok (env := env) (alg := alg) E.time h3
  refine ⟨hc, hr, hk, hd, ?_, ?_⟩
  · have e : validateEncodingParams (some (exRequest alg key env.now)) =
        if key.length = 0 || L8W8JWT_MAX_KEY_SIZE < key.length then L8W8JWT_INVALID_ARG else L8W8JWT_SUCCESS := rfl
    rw [e, if_neg (by simp only [Bool.or_eq_true, decide_eq_true_eq]; omega)]
  · rcases alg?_range alg with ⟨j, rfl⟩ | ⟨-, h | h⟩
    · have : ∀ j : Fin 14, (alg? (j.val : Int)).isSome := by decide
      exact this j
    · omega
    · omega

/-- **C84** Each of the programs, when no allocation fails: if its text can be signed with its key, it prints a message with the token of
the intended header and payload, which expires in ten minutes, returns 0, and all memory has been given back; otherwise it reads a
variable without a value, or gives NULL to `%s`. -/
theorem C84_encode_partial (E : ExEnv env fuel) (gd : s.good) {f : CFun} (hx : (f, alg, name, key) ∈ encodeExamples) :
    ∃ n sch, alg? alg = some (n, sch) ∧
      ((∃ sig tok st', Signed env (exRequest alg key env.now) (signingInput (exHeader n) (exPayload env.now)) sig ∧
          IsToken tok (exHeader n) (exPayload env.now) sig ∧ runMain env fuel f s = .ok (.int 0, st') ∧
          st'.printed = some (encMessage name tok) ∧ st'.heap.live = []) ∨
       (∃ rc, SignFails env (exRequest alg key env.now) (signingInput (exHeader n) (exPayload env.now)) rc) ∧
          (runMain env fuel f s = .error .uninit ∨ runMain env fuel f s = .error (.ub .nullDeref))) := by
  obtain ⟨hc, hr, hk, hd, hv, ha⟩ := ex_ready E hx
  obtain ⟨rc, t, st1, ha', e, T⟩ := C79_encode_text (d := 0) (s := s) hc E.crypto hr hk hv gd hd
  obtain ⟨⟨n, sch⟩, ha⟩ := Option.isSome_iff_exists.mp ha
  have ah : alg? (exRequest alg key env.now).alg = some (n, sch) := ha
  have hH := writtenHeader_ex (key := key) (now := env.now) ha
  have hP := writtenPayload_ex (alg := alg) (key := key) E.time
  refine ⟨n, sch, ha, ?_⟩
  cases ha' with
  | failed c hn =>
    refine Or.inr ⟨?_, encode_failed E hx e T hn⟩
    cases c with
    | unknown h => rw [ah] at h; cases h
    | sign h f => rw [ah] at h; cases h; rw [hH, hP] at f; exact ⟨_, f⟩
    | done => exact absurd rfl hn
  | @done n' sch' sig tok _ h sg it =>
    rw [ah] at h
    cases h
    rw [hH, hP] at sg it
    obtain ⟨st', e', p', l'⟩ := encode_ok E hx e T
    have h0 : 0 ∉ tok := by
      rw [it]
      have hb : ∀ d, 0 ∉ b64 true d := fun d hc => by
        obtain ⟨i, hi, e⟩ := b64_mem _ _ _ hc
        have : ∀ i < 64, alphabet true i ≠ 0 := by decide
        exact this i hi e.symm
      simp only [List.mem_append, not_or]
      exact ⟨⟨⟨⟨hb _, by decide⟩, hb _⟩, by decide⟩, hb _⟩
    rw [cString_id h0] at p'
    exact Or.inl ⟨sig, tok, st', sg, it, e', p', l'⟩

/-- **C84** The same whatever allocations fail (with `L8W8JWT_SMALL_STACK`: if none fails): the program prints a message with a text, returns 0 and all memory has been given back, or it
reads a variable without a value, or gives NULL to `%s`. -/
theorem C84_encode_lowmem_partial (E : ExEnv env fuel) (hss : env.smallStack = false ∨ s.noAllocFail) {f : CFun} (hx : (f, alg, name, key) ∈ encodeExamples) :
    (∃ t st', runMain env fuel f s = .ok (.int 0, st') ∧ st'.printed = some (encMessage name t) ∧ st'.heap.live = []) ∨
      runMain env fuel f s = .error .uninit ∨ runMain env fuel f s = .error (.ub .nullDeref) := by
  obtain ⟨hc, hr, hk, hd, -⟩ := ex_ready E hx
  obtain ⟨rc, t, st1, e, T, hi, -⟩ := C79_encode_lowmem_text (d := 0) (s := s) hc E.crypto hr hk hss hd
  cases t with
  | none => exact Or.inr (encode_failed E hx e T fun h => absurd rfl (hi.mp h))
  | some tok =>
    cases hi.mpr (by simp)
    obtain ⟨st', e', p', l'⟩ := encode_ok E hx e T
    exact Or.inl ⟨_, st', e', p', l'⟩

/-- **C84** None of the programs looks at the return code of `l8w8jwt_encode` before it uses `jwt`: if the first allocation fails, each of
them reads that variable, to which nothing has been assigned. -/
theorem C84_encode_false (E : ExEnv env fuel) (hs : s.failAlloc 0 = true) {f : CFun} (hx : (f, alg, name, key) ∈ encodeExamples) :
    runMain env fuel f s = .error .uninit := by
  obtain ⟨hc, hr, hk, hd, hv, -⟩ := ex_ready E hx
  have he : encode env (some (exRequest alg key env.now)) s (encSt alg env.now key).heap = .ok ({ rc := L8W8JWT_OUT_OF_MEM }, ⟨1, []⟩) := by
    have ht : (encSt alg env.now key).heap = ⟨0, []⟩ := rfl
    simp only [encode, hv, ne_eq, not_true_eq_false, if_false, ht]
    have ha : alloc [] s ⟨0, []⟩ = .ok (none, ⟨1, []⟩) := by simp [alloc, hs]
    show M.bind (alloc []) _ s _ = _
    simp only [M.bind, ha]
    rfl
  obtain ⟨mem', e, -, g1, -⟩ := encode_text_call (d := 0) hc he
  obtain ⟨h1, h2, -⟩ := encodeExamples_facts _ hx
  cases encodeExamples_main hx
  have e0 := encode_start (env := env) (fuel := fuel) (s := s) (alg := alg) (fmt := encFormat name) ⟨by have := E.time; omega, E.time.2⟩ h2
  refine runMain_error (f := Ex.encodeMain alg key (encFormat name)) rfl (e0.trans ?_)
  exact tail_undef rfl rfl e rfl g1

example : ExEnv toy 20000 ∧ (Ex.hs256_encode, (0 : Int), "hs256", str "test key") ∈ encodeExamples :=
  ⟨⟨toyOk, by decide, by decide⟩, List.mem_cons_self⟩

/-- The texts of header and payload at time 1000. -/
example : exHeader "HS256" = str "{\"alg\":\"HS256\",\"typ\":\"JWT\",\"kid\":\"some-key-id-here-012345\"}" ∧
    exPayload 1000 = str ("{\"iat\":1000,\"exp\":1600,\"sub\":\"Gordon Freeman\",\"iss\":\"Black Mesa\",\"aud\":\"Administrator\"," ++
      "\"ctx\":\"Unforseen Consequences\",\"age\":27,\"size\":1.85,\"alive\":true,\"nulltest\":null}") := by decide +kernel

/-- The first program at that time prints a token which the toy code signs. -/
example : ∃ sig tok st', toyCrypto.hmac .sha256 (str "test key") (signingInput (exHeader "HS256") (exPayload 1000)) = some sig ∧
    IsToken tok (exHeader "HS256") (exPayload 1000) sig ∧ runMain toy 20000 Ex.hs256_encode calm = .ok (.int 0, st') ∧
    st'.printed = some (str "\nl8w8jwt_encode_hs256 function returned successfully (code 0).\n\nCreated token: \n" ++ tok ++ str "\n") ∧
    st'.heap.live = [] := by
  obtain ⟨n, sch, ha, h | ⟨⟨rc, h⟩, -⟩⟩ := C84_encode_partial (env := toy) (fuel := 20000) (s := calm) (f := Ex.hs256_encode) (alg := 0)
    (name := "hs256") (key := str "test key") ⟨toyOk, by decide, by decide⟩ ⟨fun _ => rfl, fun _ => rfl⟩ List.mem_cons_self
  · cases ha
    obtain ⟨sig, tok, st', h1, h2, h3, h4, h5⟩ := h
    exact ⟨sig, tok, st', h1, h2, h3, h4, h5⟩
  · cases ha
    cases h with
    | seed h => cases h
    | hmac _ _ h => cases h
    | pem _ h h' => cases h; cases h'
    | edOff _ h => cases h
    | edKey _ h => cases h

/-- Without memory it reads `jwt`, which has no value. -/
example : runMain toy 20000 Ex.hs256_encode { failAlloc := fun _ => true, failGrow := fun _ => none } = .error .uninit :=
  C84_encode_false ⟨toyOk, by decide, by decide⟩ rfl List.mem_cons_self

end L8w8jwt.C
