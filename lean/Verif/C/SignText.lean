import Verif.C.MbedRules
/-!
# The text of write_signature (src/encode.c:219-587) in parts
-/

namespace L8w8jwt.C
open L8w8jwt L8w8jwt.C.Src

/-- Statements followed by `K`. -/
def pre : List Stmt → Stmt → Stmt
  | [], K => K
  | a :: L, K => .seq a (pre L K)

theorem pre_nil (K : Stmt) : pre [] K = K := rfl
theorem pre_cons (a : Stmt) (L : List Stmt) (K : Stmt) : pre (a :: L) K = .seq a (pre L K) := rfl

/-- A call with a list of arguments. -/
def callE (f : String) (args : List Expr) : Expr := .call f (args.foldr .cons .nil)

/-- The address of member `i` of the structure that the second parameter points to. -/
def memE (i : Int) : Expr := .padd 1 (.loc 1) (.num i)

/-- `if (e) { r = n; goto l; }` -/
def orElse (e : Expr) (n : Int) (l : String) : Stmt := .ite e (.seq (.exp (.set 2 (.num n))) (.goto l)) .skip

/-- `if (r != 0) { r = n; goto l; }` -/
def failIf (n : Int) (l : String) : Stmt := orElse (.cmp .ne (.loc 2) (.num 0)) n l

/-- `mbedtls_ctr_drbg_random` -/
def rngE : Expr := .str [109, 98, 101, 100, 116, 108, 115, 95, 99, 116, 114, 95, 100, 114, 98, 103, 95, 114, 97, 110, 100, 111, 109]

/-- `mbedtls_entropy_func` -/
def entropyE : Expr := .str [109, 98, 101, 100, 116, 108, 115, 95, 101, 110, 116, 114, 111, 112, 121, 95, 102, 117, 110, 99]

/-- A statement that is passed over while looking for a `case` or a label. -/
def skips : Mode → Stmt → Bool
  | .run, _ => false
  | m, .seq a b => skips m a && skips m b
  | .case j, .case i => decide (i ≠ j)
  | .label l, .label k => k != l
  | .dflt, .default => false
  | _, _ => true

theorem skip_stmt {c : Ctx} {b : Stmt} {m : Mode} (h : skips m b = true) (s : Sched) (st : St) (Q : Ctl → St → Prop) :
    WP (exec c b m) s st Q = Q (.next m) st := by
  induction b generalizing Q st with
  | seq a b iha ihb =>
    have h' : skips m a = true ∧ skips m b = true := by
      cases m <;> simp only [skips, Bool.and_eq_true, Bool.false_eq_true] at h <;> exact h
    rw [wp_seq, iha h'.1, then_next, ihb h'.2]
  | case i =>
    cases m with
    | run => simp [skips] at h
    | dflt => rw [case_dflt]
    | label l => rw [case_label]
    | case j =>
      have h' : i ≠ j := by simpa [skips] using h
      rw [case_miss _ _ _ _ _ (fun e => h' e.symm)]
  | label k =>
    cases m with
    | run => simp [skips] at h
    | case j => rw [label_case]
    | dflt => rw [label_dflt]
    | label l =>
      have h' : k ≠ l := by simpa [skips] using h
      rw [wp_label, if_neg (by simpa using Ne.symm h')]
  | default =>
    cases m with
    | run => simp [skips] at h
    | dflt => simp [skips] at h
    | label l => rw [default_label]
    | case j => rw [default_case]
  | _ =>
    cases m <;> first
      | (simp [skips] at h; done)
      | simp only [exec, wp_pure]

theorem skip_pre {c : Ctx} {L : List Stmt} {m : Mode} (h : L.all (skips m) = true) (K : Stmt) (s : Sched) (st : St) (Q : Ctl → St → Prop) :
    WP (exec c (pre L K) m) s st Q = WP (exec c K m) s st Q := by
  induction L with
  | nil => rfl
  | cons a L ih =>
    simp only [List.all_cons, Bool.and_eq_true] at h
    rw [pre_cons, wp_seq, skip_stmt h.1, then_next, ih h.2]

theorem wp_pre {c : Ctx} (a : Stmt) (L : List Stmt) (K : Stmt) (m : Mode) (s : Sched) (st : St) (Q : Ctl → St → Prop) :
    WP (exec c (pre (a :: L) K) m) s st Q = WP (exec c a m) s st (Then c (pre L K) s Q) := wp_seq _ _ _ _ _ _ _

theorem wp_pre0 {c : Ctx} (K : Stmt) (m : Mode) (s : Sched) (st : St) (Q : Ctl → St → Prop) :
    WP (exec c (pre [] K) m) s st Q = WP (exec c K m) s st Q := rfl

theorem wp_callE {c : Ctx} (f : String) (args : List Expr) (s : Sched) (st : St) (Q : Val → St → Prop) :
    WP (eval c (callE f args)) s st Q = WP (eval c (.call f (args.foldr .cons .nil))) s st Q := rfl

theorem wp_foldr_nil {c : Ctx} (s : Sched) (st : St) (Q : List Val → St → Prop) :
    WP (evalArgs c (List.foldr Args.cons Args.nil [])) s st Q = Q [] st := wp_args_nil _ _ _ _

theorem wp_foldr_cons {c : Ctx} (e : Expr) (L : List Expr) (s : Sched) (st : St) (Q : List Val → St → Prop) :
    WP (evalArgs c (List.foldr Args.cons Args.nil (e :: L))) s st Q =
      WP (eval c e) s st fun v st1 => WP (evalArgs c (List.foldr Args.cons Args.nil L)) s st1 fun vs st2 => Q (v :: vs) st2 := wp_args_cons _ _ _ _ _ _

theorem wp_memE {c : Ctx} (i : Int) (s : Sched) (st : St) (Q : Val → St → Prop) :
    WP (eval c (memE i)) s st Q = WP (eval c (.padd 1 (.loc 1) (.num i))) s st Q := rfl

theorem wp_rngE {c : Ctx} (s : Sched) (st : St) (Q : Val → St → Prop) : WP (eval c rngE) s st Q = Q rngFn st := by
  unfold rngE
  rw [wp_str]
  rfl

theorem wp_entropyE {c : Ctx} (s : Sched) (st : St) (Q : Val → St → Prop) : WP (eval c entropyE) s st Q = Q entropyFn st := by
  unfold entropyE
  rw [wp_str]
  rfl

/-- Execute, with the abbreviations of this file. -/
macro "xp" : tactic => `(tactic| xi [↓wp_pre, ↓wp_pre0, ↓wp_callE, ↓wp_memE, ↓wp_rngE, ↓wp_entropyE, ↓wp_foldr_nil, ↓wp_foldr_cons])

/-- Several `case` markers in running mode. -/
theorem pre_cases {c : Ctx} (cs : List Int) (L : List Stmt) (K : Stmt) (s : Sched) (st : St) (Q : Ctl → St → Prop) :
    WP (exec c (pre (cs.map Stmt.case ++ L) K) .run) s st Q = WP (exec c (pre L K) .run) s st Q := by
  induction cs with
  | nil => rfl
  | cons a cs ih => rw [List.map_cons, List.cons_append, pre_cons, wp_seq, case_run, then_next, ih]

/-- The `case` that is looked for. -/
theorem pre_hit {c : Ctx} {j : Int} (cs : List Int) (L : List Stmt) (h : j ∈ cs) (K : Stmt) (s : Sched) (st : St) (Q : Ctl → St → Prop) :
    WP (exec c (pre (cs.map Stmt.case ++ L) K) (.case j)) s st Q = WP (exec c (pre L K) .run) s st Q := by
  induction cs with
  | nil => cases h
  | cons a cs ih =>
    rw [List.map_cons, List.cons_append, pre_cons, wp_seq]
    by_cases e : j = a
    · subst e
      rw [case_hit, then_next, pre_cases]
    · rw [case_miss _ _ _ _ _ e, then_next, ih (by simpa [e] using h)]

/-- The value of the condition of `orElse`. -/
def Test (n : Int) (l : String) (Q : Ctl → St → Prop) (v : Val) (st : St) : Prop :=
  ∃ b, v.truth = .ok b ∧ (b = false → Q (.next .run) st) ∧ (b = true → Q (.next (.label l)) { st with fr := st.fr.set 2 (.int n) })

theorem test_false {n : Int} {l : String} {Q : Ctl → St → Prop} {v : Val} {st : St} (hv : v.truth = .ok false) (h : Q (.next .run) st) :
    Test n l Q v st := ⟨false, hv, fun _ => h, fun h => absurd h (by decide)⟩

theorem test_true {n : Int} {l : String} {Q : Ctl → St → Prop} {v : Val} {st : St} (hv : v.truth = .ok true)
    (h : Q (.next (.label l)) { st with fr := st.fr.set 2 (.int n) }) : Test n l Q v st := ⟨true, hv, fun h => absurd h (by decide), fun _ => h⟩

theorem wp_orElse {c : Ctx} {e : Expr} {n : Int} {l : String} {s : Sched} {st : St} {Q : Ctl → St → Prop}
    (h : WP (eval c e) s st (Test n l Q)) : WP (exec c (orElse e n l) .run) s st Q := by
  unfold orElse
  rw [wp_if]
  refine WP_mono h ?_
  rintro v st1 ⟨b, hb, h0, h1⟩
  rw [hb, Lift_ok]
  cases b with
  | false => xs []; exact h0 rfl
  | true => xs []; exact h1 rfl

theorem wp_failIf {c : Ctx} {n r : Int} {l : String} {s : Sched} {st : St} {Q : Ctl → St → Prop} (hr : st.fr.getD 2 .undef = .int r)
    (h0 : r = 0 → Q (.next .run) st) (h1 : r ≠ 0 → Q (.next (.label l)) { st with fr := st.fr.set 2 (.int n) }) :
    WP (exec c (failIf n l) .run) s st Q := by
  unfold failIf
  refine wp_orElse ?_
  xs []
  rw [hr]
  xs []
  by_cases h : r = 0
  · exact test_false (by rw [truth_ofBool]; simpa using h) (h0 h)
  · exact test_true (by rw [truth_ofBool]; simpa using h) (h1 h)

/-- encode.c:219-233: the variables. -/
def sigInit : List Stmt :=
  [.decl 2,
   .exp (.set 3 (.load (.int .i32) (.loc 1))),
   .declMem 4 1 [] .undef,
   .exp (.store .ptr (.loc 4) .null),
   .declMem 5 1 [] .undef,
   .exp (.store (.int .u64) (.loc 5) (.num 0)),
   .declMem 6 1 [] .undef,
   .exp (.store (.int .u64) (.loc 6) (.num 0)),
   .exp (.set 7 (.num 0)),
   .declMem 8 4 [] .undef,
   .declMem 9 1 [] .undef,
   .declMem 10 1 [] .undef,
   .exp (callE "mbedtls_pk_init" [.loc 8]),
   .exp (callE "mbedtls_entropy_init" [.loc 9]),
   .exp (callE "mbedtls_ctr_drbg_init" [.loc 10])]

/-- encode.c:235-247: the two buffers. -/
def sigBufs (ss : Bool) : List Stmt :=
  if ss then
    [.exp (.set 11 (callE "calloc" [.num 1, .num 4096])),
     .exp (.set 12 (callE "calloc" [.num 1, .num 8192])),
     orElse (.lor (.cmp .eq (.loc 11) .null) (.cmp .eq (.loc 12) .null)) 300 "exit"]
  else
    [.declMem 11 4096 [.int 0] (.int 0),
     .declMem 12 8192 [.int 0] (.int 0)]

/-- encode.c:249-259: the key and the seeding. -/
def sigSeed : List Stmt :=
  [.exp (.set 7 (.load (.int .u64) (memE 17))),
   .exp (callE "memcpy" [.loc 12, .load .ptr (memE 16), .loc 7]),
   .exp (.set 7 (.ar .add .u64 (.loc 7) (.cast .u64 (.cmp .ne (.load (.int .u8) (.padd 1 (.loc 12) (.ar .sub .u64 (.loc 7) (.num 1)))) (.num 0))))),
   .exp (.set 2 (callE "mbedtls_ctr_drbg_seed" [.loc 10, entropyE, .loc 9, .str [108, 56, 119, 56, 106, 119, 116, 95, 109, 98, 101, 100, 116, 108, 115, 95, 112, 101, 114, 115, 46, 33, 35, 64], .num 24]))]

/-- encode.c:266-273: the hash function. -/
def sigMd : List Stmt :=
  [.declMem 13 1 [] .undef,
   .exp (.store (.int .u64) (.loc 13) (.num 0)),
   .declMem 14 1 [] .undef,
   .exp (.store (.int .u32) (.loc 14) (.num 0)),
   .declMem 15 1 [] .undef,
   .exp (.store .ptr (.loc 15) .null),
   .exp (callE "encode_c_md_info_from_alg" [.loc 3, .loc 15, .loc 14, .loc 13]),
   .declMem 16 64 [.int 0] (.int 0)]

/-- encode.c:276-295: HMAC. -/
def hmacL : List Stmt :=
  [.case 0,
   .case 1,
   .case 2,
   .exp (.set 2 (callE "mbedtls_md_hmac" [.load .ptr (.loc 15), .loc 12, .ar .sub .u64 (.loc 7) (.num 1), .load .ptr (.loc 0), .load (.int .u64) (.padd 1 (.loc 0) (.num 1)), .loc 11])),
   failIf 400 "exit",
   .exp (.store (.int .u64) (.loc 6) (.cast .u64 (.ar .add .i32 (.num 32) (.ar .mul .i32 (.num 16) (.load (.int .i32) (.loc 1)))))),
   .brk]

/-- encode.c:296-340: RSA, PKCS #1 v1.5. -/
def rsaL : List Stmt :=
  [.case 3,
   .case 4,
   .case 5,
   .exp (.set 2 (callE "mbedtls_pk_parse_key" [.loc 8, .loc 12, .loc 7, .load .ptr (memE 18), .load (.int .u64) (memE 19), rngE, .loc 10])),
   failIf 420 "exit",
   orElse (.land (.not (callE "mbedtls_pk_can_do" [.loc 8, .num 1])) (.not (callE "mbedtls_pk_can_do" [.loc 8, .num 5]))) 450 "exit",
   orElse (.cmp .lt (callE "mbedtls_pk_get_bitlen" [.loc 8]) (.num 2048)) 450 "exit",
   .exp (.set 2 (callE "mbedtls_md" [.load .ptr (.loc 15), .load .ptr (.loc 0), .load (.int .u64) (.padd 1 (.loc 0) (.num 1)), .loc 16])),
   failIf 410 "exit",
   .exp (.set 2 (callE "mbedtls_pk_sign" [.loc 8, .load (.int .u32) (.loc 14), .loc 16, .load (.int .u64) (.loc 13), .loc 11, .num 4096, .loc 6, rngE, .loc 10])),
   failIf 400 "exit",
   .brk]

/-- encode.c:341-383: RSA, PSS. -/
def pssL : List Stmt :=
  [.case 6,
   .case 7,
   .case 8,
   .exp (.set 2 (callE "mbedtls_pk_parse_key" [.loc 8, .loc 12, .loc 7, .load .ptr (memE 18), .load (.int .u64) (memE 19), rngE, .loc 10])),
   failIf 420 "exit",
   orElse (.not (callE "mbedtls_pk_can_do" [.loc 8, .num 6])) 450 "exit",
   orElse (.cmp .lt (callE "mbedtls_pk_get_bitlen" [.loc 8]) (.num 2048)) 450 "exit",
   .exp (.set 2 (callE "mbedtls_md" [.load .ptr (.loc 15), .load .ptr (.loc 0), .load (.int .u64) (.padd 1 (.loc 0) (.num 1)), .loc 16])),
   failIf 410 "exit",
   .exp (.set 17 (callE "mbedtls_pk_rsa" [.loc 8])),
   .exp (callE "mbedtls_rsa_set_padding" [.loc 17, .num 1, .load (.int .u32) (.loc 14)]),
   .exp (.set 2 (callE "mbedtls_rsa_rsassa_pss_sign" [.loc 17, rngE, .loc 10, .load (.int .u32) (.loc 14), .cast .u32 (.load (.int .u64) (.loc 13)), .loc 16, .loc 11])),
   failIf 400 "exit",
   .exp (.store (.int .u64) (.loc 6) (.ar .div .u64 (callE "mbedtls_pk_get_bitlen" [.loc 8]) (.num 8))),
   .brk]

/-- encode.c:384-397 -/
def ecDecl : List Stmt :=
  [.case 9,
   .case 10,
   .case 11,
   .case 12,
   .declMem 18 9 [] .undef,
   .exp (callE "mbedtls_ecdsa_init" [.loc 18]),
   .declMem 19 1 [] .undef,
   .declMem 20 1 [] .undef,
   .exp (callE "mbedtls_mpi_init" [.loc 19]),
   .exp (callE "mbedtls_mpi_init" [.loc 20])]

/-- encode.c:398-422 -/
def ecKey : List Stmt :=
  [.exp (.set 2 (callE "mbedtls_pk_parse_key" [.loc 8, .loc 12, .loc 7, .load .ptr (memE 18), .load (.int .u64) (memE 19), rngE, .loc 10])),
   failIf 420 "ecdsa_exit",
   orElse (.not (callE "mbedtls_pk_can_do" [.loc 8, .num 4])) 450 "ecdsa_exit",
   .exp (.set 2 (callE "mbedtls_ecdsa_from_keypair" [.loc 18, callE "mbedtls_pk_ec" [.loc 8]])),
   failIf 420 "ecdsa_exit",
   .exp (.set 2 (callE "mbedtls_md" [.load .ptr (.loc 15), .load .ptr (.loc 0), .load (.int .u64) (.padd 1 (.loc 0) (.num 1)), .loc 16])),
   failIf 410 "ecdsa_exit",
   .exp (.set 2 (.num 0))]

/-- encode.c:424-476 -/
def ecSw : List Stmt :=
  [.case 9,
   orElse (.cmp .ne (.load (.int .i32) (.loc 18)) (.num 3)) 450 "ecdsa_exit",
   .exp (.store (.int .u64) (.loc 6) (.num 64)),
   .exp (.set 2 (.cmp .eq (callE "mbedtls_pk_get_bitlen" [.loc 8]) (.num 256))),
   .brk,
   .case 12,
   orElse (.cmp .ne (.load (.int .i32) (.loc 18)) (.num 12)) 450 "ecdsa_exit",
   .exp (.store (.int .u64) (.loc 6) (.num 64)),
   .exp (.set 2 (.cmp .eq (callE "mbedtls_pk_get_bitlen" [.loc 8]) (.num 256))),
   .brk,
   .case 10,
   orElse (.cmp .ne (.load (.int .i32) (.loc 18)) (.num 4)) 450 "ecdsa_exit",
   .exp (.store (.int .u64) (.loc 6) (.num 96)),
   .exp (.set 2 (.cmp .eq (callE "mbedtls_pk_get_bitlen" [.loc 8]) (.num 384))),
   .brk,
   .case 11,
   orElse (.cmp .ne (.load (.int .i32) (.loc 18)) (.num 5)) 450 "ecdsa_exit",
   .exp (.store (.int .u64) (.loc 6) (.num 132)),
   .exp (.set 2 (.cmp .eq (callE "mbedtls_pk_get_bitlen" [.loc 8]) (.num 521))),
   .brk,
   .default]

/-- encode.c:477-510 -/
def ecSign : List Stmt :=
  [orElse (.cmp .eq (.loc 2) (.num 0)) 450 "ecdsa_exit",
   .exp (.set 2 (callE "mbedtls_ecdsa_sign" [.loc 18, .loc 19, .loc 20, .padd 1 (.loc 18) (.num 1), .loc 16, .load (.int .u64) (.loc 13), rngE, .loc 10])),
   failIf 400 "ecdsa_exit",
   .exp (.set 21 (.ar .div .u64 (.load (.int .u64) (.loc 6)) (.num 2))),
   .exp (.set 2 (callE "mbedtls_mpi_write_binary" [.loc 19, .loc 11, .loc 21])),
   failIf 400 "ecdsa_exit",
   .exp (.set 2 (callE "mbedtls_mpi_write_binary" [.loc 20, .padd 1 (.loc 11) (.loc 21), .loc 21])),
   failIf 400 "ecdsa_exit",
   .exp (.set 2 (.num 0))]

/-- encode.c:511-522 -/
def ecExit : List Stmt :=
  [.label "ecdsa_exit",
   .exp (callE "mbedtls_mpi_free" [.loc 19]),
   .exp (callE "mbedtls_mpi_free" [.loc 20]),
   .exp (callE "mbedtls_ecdsa_free" [.loc 18]),
   .ite (.cmp .ne (.loc 2) (.num 0)) (.goto "exit") .skip,
   .brk]

/-- encode.c:523-549: Ed25519. -/
def edL : List Stmt :=
  [.case 13,
   orElse (.land (.cmp .ne (.load (.int .u64) (memE 17)) (.num 128)) (.not (.land (.cmp .eq (.load (.int .u64) (memE 17)) (.num 129)) (.cmp .eq (.load (.int .u8) (.padd 1 (.load .ptr (memE 16)) (.num 128))) (.num 0))))) 450 "exit",
   .declMem 22 65 [.int 0] (.int 0),
   orElse (.cmp .ne (callE "l8w8jwt_hexstr2bin" [.load .ptr (memE 16), .load (.int .u64) (memE 17), .loc 22, .num 65, .null]) (.num 0)) 450 "exit",
   .exp (callE "ed25519_sign_ref10" [.loc 11, .load .ptr (.loc 0), .load (.int .u64) (.padd 1 (.loc 0) (.num 1)), .loc 22]),
   .exp (.store (.int .u64) (.loc 6) (.num 64)),
   .exp (callE "mbedtls_platform_zeroize" [.loc 22, .num 65]),
   .brk]

/-- encode.c:523-549, in a build without EdDSA. -/
def edOffL : List Stmt := [.case 13, .exp (.set 2 (.num 800)), .goto "exit"]

/-- encode.c:523-549 -/
def edLs (ed : Bool) : List Stmt := if ed then edL else edOffL

/-- encode.c:550-553 -/
def dfltL : List Stmt :=
  [.default,
   .exp (.set 2 (.num 200))]

/-- encode.c:555-573 -/
def sigTail : List Stmt :=
  [orElse (.cmp .eq (.load (.int .u64) (.loc 6)) (.num 0)) 400 "exit",
   .exp (.set 2 (callE "l8w8jwt_base64_encode" [.num 1, .loc 11, .load (.int .u64) (.loc 6), .loc 4, .loc 5])),
   failIf 425 "exit",
   .exp (callE "chillbuff_push_back" [.loc 0, .str [46], .num 1]),
   .exp (callE "chillbuff_push_back" [.loc 0, .load .ptr (.loc 4), .load (.int .u64) (.loc 5)])]

/-- encode.c:581-584 -/
def sigFree (ss : Bool) : List Stmt :=
  if ss then [.exp (callE "l8w8jwt_free" [.loc 12]), .exp (callE "l8w8jwt_free" [.loc 11])] else []

/-- encode.c:574-580 -/
def sigExit : List Stmt :=
  [.label "exit",
   .exp (callE "mbedtls_platform_zeroize" [.loc 12, .num 8192]),
   .exp (callE "mbedtls_ctr_drbg_free" [.loc 10]),
   .exp (callE "mbedtls_entropy_free" [.loc 9]),
   .exp (callE "mbedtls_pk_free" [.loc 8]),
   .exp (callE "l8w8jwt_free" [.load .ptr (.loc 4)])]

/-- The algorithms other than HMAC, RSA. -/
def signSwE (K : Stmt) : Stmt :=
  pre ecDecl (pre ecKey (.seq (.switch (.loc 3) (pre ecSw .brk)) (pre ecSign (pre ecExit K))))

/-- encode.c:275-554: the body of the `switch`. -/
def signSw (ed : Bool) : Stmt := pre hmacL (pre rsaL (pre pssL (signSwE (pre (edLs ed) (pre dfltL (.goto "exit"))))))

/-- encode.c:555-586 -/
def sigEnd (ss : Bool) : Stmt := pre sigTail (pre sigExit (pre (sigFree ss) (.ret (.loc 2))))

/-- The function in the four builds. -/
def sigFun (ed ss : Bool) : CFun := pick ed ss write_signature Src0.write_signature SrcS.write_signature SrcS0.write_signature

theorem sigFun_body (ed ss : Bool) : (sigFun ed ss).body =
    pre sigInit (pre (sigBufs ss) (pre sigSeed (.seq (failIf 500 "exit") (pre sigMd (.seq (.switch (.loc 3) (signSw ed)) (sigEnd ss)))))) := by
  cases ss <;> cases ed <;> rfl

/-- With EdDSA there is one variable more. -/
def edVar (ed : Bool) : List Val := if ed then [.undef] else []

theorem sigFun_slots (ed ss : Bool) : List.replicate ((sigFun ed ss).slots - (sigFun ed ss).params) Val.undef = List.replicate 20 .undef ++ edVar ed := by
  cases ss <;> cases ed <;> rfl

end L8w8jwt.C
