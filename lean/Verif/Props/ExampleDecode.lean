import Verif.Props.ExampleEncode
import Verif.Props.TextDecode
/-!
# C85: the programs examples/*/decode.c

As in Props/ExampleEncode.lean, the statements are about executions of the texts of these programs, from the start to the end, and of the
texts of the functions of /repo/src they call.
-/

namespace L8w8jwt.C

open Spec

/-! ## The programs -/

/-- The message of examples/*/decode.c with the name of the algorithm. -/
def decFormat (name : String) : Bytes :=
  str "\nl8w8jwt_decode_" ++ str name ++ str " function returned %s (code %d).\n\nValidation result: \n%d\n"

/-- The text of examples/*/decode.c with algorithm, key, token and message left open. One of the programs checks `nbf` too, and another one
`typ`. -/
def decodeMain (alg : Int) (key jwt fmt : Bytes) (nbf typ : Bool) : CFun :=
  if nbf then Ex.decodeNbfMain alg [] key jwt fmt
  else if typ then Ex.decodeTypMain alg [] key jwt fmt
  else Ex.decodeMain alg key jwt fmt

/-- Twelve of the programs, and for each of them the algorithm, the name in its message, its key, its token, and whether it checks
`nbf` and `typ`. -/
def decodeExamples : List (CFun × Int × String × Bytes × Bytes × Bool × Bool) :=
  [(Ex.hs384_decode, 1, "hs384", Ex.hs384_decode.KEY, Ex.hs384_decode.JWT, false, false),
   (Ex.hs512_decode, 2, "hs512", Ex.hs512_decode.KEY, Ex.hs512_decode.JWT, false, false),
   (Ex.rs384_decode, 4, "rs384", Ex.rs384_decode.RSA_PUBLIC_KEY, Ex.rs384_decode.JWT, false, false),
   (Ex.rs512_decode, 5, "rs512", Ex.rs512_decode.RSA_PUBLIC_KEY, Ex.rs512_decode.JWT, true, false),
   (Ex.ps256_decode, 6, "ps256", Ex.ps256_decode.RSA_PUBLIC_KEY, Ex.ps256_decode.JWT, false, false),
   (Ex.ps384_decode, 7, "ps384", Ex.ps384_decode.RSA_PUBLIC_KEY, Ex.ps384_decode.JWT, false, false),
   (Ex.ps512_decode, 8, "ps512", Ex.ps512_decode.RSA_PUBLIC_KEY, Ex.ps512_decode.JWT, false, false),
   (Ex.es256_decode, 9, "es256", Ex.es256_decode.ECDSA_PUBLIC_KEY, Ex.es256_decode.JWT, false, false),
   (Ex.es384_decode, 10, "es384", Ex.es384_decode.ECDSA_PUBLIC_KEY, Ex.es384_decode.JWT, false, false),
   (Ex.es512_decode, 11, "es512", Ex.es512_decode.ECDSA_PUBLIC_KEY, Ex.es512_decode.JWT, false, false),
   (Ex.es256k_decode, 12, "es256k", Ex.es256k_decode.ECDSA_PUBLIC_KEY, Ex.es256k_decode.JWT, false, false),
   (Ex.eddsa_decode, 13, "eddsa", Ex.eddsa_decode.ED25519_PUBLIC_KEY, Ex.eddsa_decode.JWT, false, true)]

/-- These are one text but for what is left open. -/
theorem decodeExamples_eq : decodeExamples.map (·.1) =
    decodeExamples.map fun x => decodeMain x.2.1 x.2.2.2.1 x.2.2.2.2.1 (decFormat x.2.2.1) x.2.2.2.2.2.1 x.2.2.2.2.2.2 := rfl

/-- The other two: examples/hs256/decode.c takes the claims too, and examples/rs256/decode.c goes on with raw decoding. -/
theorem decode_hs256_eq : Ex.hs256_decode = Ex.decodeClaimsMain 0 Ex.hs256_decode.KEY Ex.hs256_decode.JWT (decFormat "hs256") := rfl

theorem decode_rs256_eq : Ex.rs256_decode = Ex.decodeRawMain 3 [] Ex.rs256_decode.RSA_PUBLIC_KEY Ex.rs256_decode.JWT (decFormat "rs256") := rfl

/-- What the programs ask for. -/
def exDecRequest (alg : Int) (key jwt : Bytes) (nbf typ : Bool) : DecParams where
  jwt := some (jwt ++ [0])
  jwtLength := jwt.length
  alg := alg
  validateIss := some (str "Black Mesa" ++ [0])
  validateIssLength := 10
  validateSub := some (str "Gordon Freeman" ++ [0])
  validateSubLength := 14
  validateExp := true
  expTolerance := 60
  validateNbf := nbf
  validateIat := true
  iatTolerance := 60
  verificationKey := some (key ++ [0])
  verificationKeyLength := key.length
  validateTyp := if typ then some (str "jwt" ++ [0]) else none
  validateTypLength := if typ then 3 else 0

/-- The pointers and flags of the request. -/
def exDecPtrs (key jwt : Bytes) (nbf typ : Bool) : DecPtrs where
  jwt := litV jwt
  iss := litV (str "Black Mesa")
  sub := litV (str "Gordon Freeman")
  aud := .int 0
  jti := .int 0
  key := litV key
  typ := if typ then litV (str "jwt") else .int 0
  exp := 1
  nbf := if nbf then 1 else 0
  iat := 1

/-- The call of `l8w8jwt_decode`, the message, and what follows. `i` is the variable with the return code. -/
def decTail (fmt : Bytes) (i : Nat) (a b : Expr) (rest : Stmt) : Stmt :=
  .seq (.exp (.set i (.call "l8w8jwt_decode" (.cons (.loc 0) (.cons (.loc 1) (.cons a (.cons b .nil)))))))
    (.seq (.exp (.call "printf" (.cons (.str fmt) (.cons (.cond (.cmp .eq (.loc i) (.num 0)) (.str (str "successfully")) (.str []))
      (.cons (.loc i) (.cons (.load (.int .u32) (.loc 1)) .nil)))))) rest)

/-- The local variables: `n` more. -/
def decVars (n : Nat) : List Val := .ptr (some (.stack 0, 0)) :: .ptr (some (.stack 1, 0)) :: List.replicate n .undef

/-- What has to hold for the beginning of the program. -/
def decNeed (key jwt : Bytes) : List Need :=
  [.noNul (str "Gordon Freeman"), .noNul (str "Black Mesa"), .noNul key, .noNul jwt]

/-- The state when `l8w8jwt_decode` is called. -/
def decLay (n : Nat) (alg : Int) (key jwt : Bytes) (nbf typ : Bool) : SymSt :=
  ⟨decVars n, [decCells (exDecRequest alg key jwt nbf typ) (exDecPtrs key jwt nbf typ), [.undef]], decNeed key jwt⟩

theorem decode_prefix (alg now : Int) (key jwt fmt : Bytes) :
    symRun now 16 (Ex.decodeMain alg key jwt fmt).body ⟨List.replicate 3 .undef, [], []⟩ =
      some (decLay 1 alg key jwt false false, decTail fmt 2 .null .null (.ret (.num 0))) := by
  kernel_rfl

theorem decode_prefix_nbf (alg now : Int) (key jwt fmt : Bytes) :
    symRun now 18 (Ex.decodeNbfMain alg [] key jwt fmt).body ⟨List.replicate 3 .undef, [], []⟩ =
      some (decLay 1 alg key jwt true false, decTail fmt 2 .null .null (.ret (.num 0))) := by
  kernel_rfl

theorem decode_prefix_typ (alg now : Int) (key jwt fmt : Bytes) :
    symRun now 18 (Ex.decodeTypMain alg [] key jwt fmt).body ⟨List.replicate 3 .undef, [], []⟩ =
      some (decLay 1 alg key jwt false true, decTail fmt 2 .null .null (.ret (.num 0))) := by
  kernel_rfl

theorem decNeed_ok {key jwt : Bytes} (hk : 0 ∉ key) (hj : 0 ∉ jwt) : ∀ x ∈ decNeed key jwt, x.Holds := by
  intro x hx
  simp only [decNeed, List.mem_cons, List.not_mem_nil, or_false] at hx
  rcases hx with rfl | rfl | rfl | rfl
  · unfold Need.Holds; decide
  · unfold Need.Holds; decide
  · exact hk
  · exact hj

variable {env : Env} {fuel : Nat} {s : Sched} {alg : Int} {key jwt : Bytes} {name : String} {nbf typ : Bool} {n : Nat}

/-- The state when `l8w8jwt_decode` is called. -/
def decSt (n : Nat) (alg : Int) (key jwt : Bytes) (nbf typ : Bool) : St := (decLay n alg key jwt nbf typ).st ⟨0, []⟩ []

theorem decode_start {fmt : Bytes} (hb : (nbf && typ) = false) (hk : 0 ∉ key) (hj : 0 ∉ jwt) :
    exec (mx env fuel 4) (decodeMain alg key jwt fmt nbf typ).body .run s
        { begin with fr := [] ++ List.replicate ((decodeMain alg key jwt fmt nbf typ).slots - 0) .undef } =
      exec (mx env fuel 4) (decTail fmt 2 .null .null (.ret (.num 0))) .run s (decSt 1 alg key jwt nbf typ) := by
  cases nbf <;> cases typ
  · exact (symRun_sound 16 _ _ _ _ (decode_prefix alg env.now key jwt fmt) (decNeed_ok hk hj)).2
  · exact (symRun_sound 18 _ _ _ _ (decode_prefix_typ alg env.now key jwt fmt) (decNeed_ok hk hj)).2
  · exact (symRun_sound 18 _ _ _ _ (decode_prefix_nbf alg env.now key jwt fmt) (decNeed_ok hk hj)).2
  · cases hb

/-- The conditions under which the programs are run: with EdDSA, if this is the algorithm; the array
of tokens holds numbers of `int` in its uninitialised slots. -/
structure ExDecEnv (env : Env) (alg : Int) : Prop where
  crypto : CryptoOk env.crypto
  eddsa : alg = 13 → env.eddsa = true
  garbage : ∀ i, -2147483648 ≤ (env.garbage i).end_ ∧ (env.garbage i).end_ < 2147483648
  time : NowOk env.now

/-- The conditions for key and token: C strings, neither empty nor too long. -/
structure ExDecArgs (fuel : Nat) (alg : Int) (key jwt : Bytes) : Prop where
  fuel : 2 * jwt.length + 102 < fuel
  alg : -2147483648 ≤ alg ∧ alg < 2147483648
  key : 0 ∉ key ∧ 0 < key.length ∧ key.length < L8W8JWT_MAX_KEY_SIZE
  jwt : 0 ∉ jwt ∧ 0 < jwt.length ∧ jwt.length + 17 < 2147483648

/-- Objects of one cell, except for the parameters. -/
theorem decode_call {st : St}
    (hgb : ∀ i, -2147483648 ≤ (env.garbage i).end_ ∧ (env.garbage i).end_ < 2147483648) (A : ExDecArgs fuel alg key jwt) (hw : Wf st) (hh : HeapWf st.heap) {os : List (Option Blk)}
    (hp : st.mem (.stack 0) = some (decCells (exDecRequest alg key jwt nbf typ) (exDecPtrs key jwt nbf typ)))
    (ho : OutsAt st.mem os) (h0 : some (.stack 0) ∉ os) (hl : ∀ t, some (.lit t) ∉ os) :
    DecCall env fuel st (.stack 0) (exDecRequest alg key jwt nbf typ) os where
  wf := hw
  heap := hh
  outs := ho
  params := by
    have hL : ∀ m t, Pts globs m (nul (litV t)) (some (t ++ [0])) := fun m t => pts_lit m t
    have hk : L8W8JWT_MAX_KEY_SIZE = 8192 := rfl
    have a1 := A.alg
    have a2 := A.key
    have a3 := A.jwt
    refine ⟨.stack 0, exDecPtrs key jwt nbf typ, rfl, ⟨rfl, hp, hL _ _, hL _ _, hL _ _, rfl, rfl, hL _ _, ?_, a1, ?_, ?_, ?_, ?_, ?_, ?_, ?_, ?_, ?_, ?_⟩, ?_⟩
    · cases typ
      · rfl
      · exact hL _ _
    all_goals try (simp only [exDecRequest]; omega)
    · simp only [exDecRequest]; cases typ <;> decide
    · exact ⟨by simp [exDecPtrs], rfl⟩
    · cases nbf <;> exact ⟨by simp [exDecPtrs], rfl⟩
    · exact ⟨by simp [exDecPtrs], rfl⟩
    · rintro b (rfl | h | h | h | h | h | h | h)
      · exact h0
      · cases h; exact hl _
      · cases h; exact hl _
      · cases h; exact hl _
      · cases h
      · cases h
      · cases h; exact hl _
      · cases typ <;> cases h
        exact hl _
  garbage := hgb
  size := by
    rintro m ⟨⟩
    have := A.fuel
    have := A.jwt
    simp only [List.length_append, List.length_singleton]
    omega
  typ := by
    have := A.fuel
    simp only [exDecRequest]
    split <;> omega

theorem exDec_valid (E : ExDecEnv env alg) (A : ExDecArgs fuel alg key jwt) :
    validateDecodingParams env (some (exDecRequest alg key jwt nbf typ)) = L8W8JWT_SUCCESS := by
  have h1 := A.key
  have h2 := A.jwt
  have e : validateDecodingParams env (some (exDecRequest alg key jwt nbf typ)) =
      if jwt.length = 0 || key.length = 0 || L8W8JWT_MAX_KEY_SIZE < key.length then L8W8JWT_INVALID_ARG
      else if !env.eddsa && alg = L8W8JWT_ALG_ED25519 then L8W8JWT_UNSUPPORTED_ALG else L8W8JWT_SUCCESS := rfl
  rw [e, if_neg (by simp only [Bool.or_eq_true, decide_eq_true_eq]; omega), if_neg]
  simp only [Bool.and_eq_true, Bool.not_eq_true', decide_eq_true_eq, L8W8JWT_ALG_ED25519]
  rintro ⟨h, ha⟩
  rw [E.eddsa (by omega)] at h
  cases h

theorem exDec_token (A : ExDecArgs fuel alg key jwt) : TokenMem (exDecRequest alg key jwt nbf typ) jwt :=
  ⟨⟨[], rfl⟩, A.jwt.1, Or.inl rfl, by have := A.jwt; omega⟩

theorem exDec_key : VerKeyReadable (exDecRequest alg key jwt nbf typ) := by
  rintro m ⟨⟩
  simp [exDecRequest]

theorem exDec_verKey : verKey (exDecRequest alg key jwt nbf typ) = key := by
  simp [verKey, exDecRequest]

theorem exDec_expect : ExpectOk (exDecRequest alg key jwt nbf typ) := by
  have h1 : argOk (str "Black Mesa" ++ [0]) 10 := by unfold argOk; decide +kernel
  have h2 : argOk (str "Gordon Freeman" ++ [0]) 14 := by unfold argOk; decide +kernel
  refine ⟨?_, ?_, nofun, nofun, ?_⟩
  · rintro e ⟨⟩; exact h1
  · rintro e ⟨⟩; exact h2
  · intro e h
    cases typ <;> cases h
    decide

/-! ## The message -/

/-- What is printed: the return code and the validation result, both as numbers of `int`. -/
def decMessage (name : String) (rc : Nat) (v : BitVec 32) : Bytes :=
  str "\nl8w8jwt_decode_" ++ str name ++ str " function returned " ++ (if rc = 0 then str "successfully" else []) ++ str " (code " ++
    printInt rc ++ str ").\n\nValidation result: \n" ++ printInt v.toInt ++ str "\n"

theorem decFormat_eq (name : String) : decFormat name = (str "\nl8w8jwt_decode_" ++ str name ++ str " function returned ") ++
    37 :: 115 :: (str " (code " ++ 37 :: 100 :: (str ").\n\nValidation result: \n" ++ 37 :: 100 :: (str "\n" ++ []))) := by
  have : str " function returned %s (code %d).\n\nValidation result: \n%d\n" = str " function returned " ++
      37 :: 115 :: (str " (code " ++ 37 :: 100 :: (str ").\n\nValidation result: \n" ++ 37 :: 100 :: (str "\n" ++ []))) := by decide
  rw [decFormat, this]
  simp only [List.append_assoc]

theorem decFormat_nul (h : NameOk name) : 0 ∉ decFormat name := by
  simp only [decFormat, List.mem_append, not_or]
  exact ⟨⟨by decide, h.1⟩, by decide⟩

theorem decFormat_pre (h : NameOk name) : 37 ∉ str "\nl8w8jwt_decode_" ++ str name ++ str " function returned " := by
  simp only [List.mem_append, not_or]
  exact ⟨⟨by decide, h.2⟩, by decide⟩

theorem wrap_small {cs : Bool} {n : Nat} (h : n < 2147483648) : wrap cs .i32 n = n := by
  cases cs <;> (simp only [wrap, ITy.signed, ITy.modulus, if_pos]; omega)

theorem wrap_vres {cs : Bool} (v : BitVec 32) : wrap cs .i32 v.toNat = v.toInt := by
  have := v.isLt
  rw [BitVec.toInt_eq_toNat_cond]
  by_cases h : 2 * v.toNat < 2 ^ 32
  · rw [if_pos h]
    cases cs <;> (simp only [wrap, ITy.signed, ITy.modulus]; split <;> omega)
  · have hm : ITy.i32.modulus = 4294967296 := rfl
    rw [if_neg h, wrap, if_pos (by cases cs <;> rfl), hm, if_pos (by omega)]
    omega

theorem printed_dec {st : St} {rc : Nat} {v : BitVec 32} {out : Bytes} (hn : NameOk name) (hr : rc < 2147483648)
    (ho : st.mem (.ext 0) = some (cells out)) :
    xPrintf (lctx env) [litV (decFormat name), litV (if (rc : Int) = 0 then str "successfully" else []), .int rc, .int v.toNat] s st =
      .ok (.undef, { st with mem := upd st.mem (.ext 0) (some (cells (out ++ decMessage name rc v))) }) := by
  have e : formatted (lctx env) 0 (decFormat name) [litV (if (rc : Int) = 0 then str "successfully" else []), .int rc, .int v.toNat] s st =
      .ok (decMessage name rc v, st) := by
    have h3 : formatted (lctx env) 0 (37 :: 100 :: (str "\n" ++ [])) [.int v.toNat] s st = .ok (printInt v.toInt ++ str "\n", st) := by
      rw [formatted_d, wrap_vres]
      rfl
    have h2 := formatted_lit (a := str ").\n\nValidation result: \n") (by decide) h3
    have h1 : formatted (lctx env) 0 (37 :: 100 :: (str ").\n\nValidation result: \n" ++ 37 :: 100 :: (str "\n" ++ []))) [.int rc, .int v.toNat] s st =
        .ok (printInt rc ++ (str ").\n\nValidation result: \n" ++ (printInt v.toInt ++ str "\n")), st) := by
      rw [formatted_d, h2, wrap_small hr]
    have h0 := formatted_lit (a := str " (code ") (by decide) h1
    have hz : 0 ∉ (if (rc : Int) = 0 then str "successfully" else []) := by split <;> decide
    have hk : formatted (lctx env) 0 (37 :: 115 :: (str " (code " ++ 37 :: 100 :: (str ").\n\nValidation result: \n" ++ 37 :: 100 :: (str "\n" ++ []))))
        [litV (if (rc : Int) = 0 then str "successfully" else []), .int rc, .int v.toNat] s st =
          .ok ((if (rc : Int) = 0 then str "successfully" else []) ++ (str " (code " ++ (printInt rc ++ (str ").\n\nValidation result: \n" ++
            (printInt v.toInt ++ str "\n")))), st) := by
      rw [formatted_s (pts_lit _ _) (strlen_lit _ hz), h0, List.take_left]
    have hi : (if (rc : Int) = 0 then str "successfully" else []) = if rc = 0 then str "successfully" else [] := by
      simp only [Int.natCast_eq_zero]
    rw [decFormat_eq, formatted_lit (decFormat_pre hn) hk, decMessage, hi]
    simp only [List.append_assoc]
  exact printf_run (decFormat_nul hn) ho e

/-- The call and the message. -/
theorem dec_tail {st st1 : St} {i rc : Nat} {a b : Expr} {va vb : Val} {v : BitVec 32} {out : Bytes} {rest : Stmt} (hn : NameOk name) (hr : rc < 2147483648)
    (h0 : st.fr.getD 0 .undef = .ptr (some (.stack 0, 0))) (h1 : st.fr.getD 1 .undef = .ptr (some (.stack 1, 0))) (hi : 1 < i) (hl : i < st.fr.length)
    (ha : eval (mx env fuel 4) a s st = .ok (va, st)) (hb : eval (mx env fuel 4) b s st = .ok (vb, st))
    (e : runFun (cx env fuel 3) Src.l8w8jwt_decode [.ptr (some (.stack 0, 0)), .ptr (some (.stack 1, 0)), va, vb] s st = .ok (.int rc, st1))
    (hf : st1.fr = st.fr) (hv : st1.mem (.stack 1) = some [.int v.toNat]) (ho : st1.mem (.ext 0) = some (cells out)) :
    exec (mx env fuel 4) (decTail (decFormat name) i a b rest) .run s st =
      exec (mx env fuel 4) rest .run s { st1 with fr := st.fr.set i (.int rc), mem := upd st1.mem (.ext 0) (some (cells (out ++ decMessage name rc v))) } := by
  have e1 : eval (mx env fuel 4) (.set i (.call "l8w8jwt_decode" (.cons (.loc 0) (.cons (.loc 1) (.cons a (.cons b .nil)))))) s st =
      .ok (.int rc, { st1 with fr := st.fr.set i (.int rc) }) := by
    simp only [eval, evalArgs, X.bind_apply, getLoc_apply, h0, h1, X.pure_apply, ha, hb]
    rw [mx_call (by decide), cx_fun _ _ _ rfl, e]
    simp only [setLoc_apply, hf]
  have g1 : (st.fr.set i (.int rc)).getD 1 .undef = .ptr (some (.stack 1, 0)) := by
    rw [← h1]
    simp [List.getD, show i ≠ 1 by omega]
  have g2 : (st.fr.set i (.int rc)).getD i .undef = .int rc := by
    simp [List.getD, hl]
  have hlt := v.isLt
  have hc := eval_success (c := mx env fuel 4) (i := i) (rc := rc) (s := s) (st := { st1 with fr := st.fr.set i (.int rc) }) g2
  have hld := eval_load (c := mx env fuel 4) (t := .int .u32) (i := 1) (w := .int v.toNat) (s := s) (st := { st1 with fr := st.fr.set i (.int rc) }) g1 rfl hv
    (by show Except.ok (Val.int (wrap _ .u32 v.toNat)) = _; simp only [wrap, ITy.signed, ITy.modulus]; congr 2; simp; omega)
  refine (exec_exp e1).trans (exec_exp (v := .undef) ?_)
  refine (eval_call (evalArgs_cons rfl (evalArgs_cons hc (evalArgs_cons (eval_loc g2) (evalArgs_cons hld rfl))))).trans ?_
  exact printed_dec (st := { st1 with fr := st.fr.set i (.int rc) }) hn hr ho

/-- The return codes are numbers of `int`. -/
theorem answer_small {env : Env} {p : DecParams} {tok : Bytes} {rc : Nat} {v : BitVec 32} {ds : List DClaim} (h : Answer env p tok rc v ds) :
    rc < 2147483648 := by
  have hs : ∀ {a t rc}, SegCode a t rc → rc < 2147483648 := by
    rintro a t rc (⟨-, rfl⟩ | ⟨_, _, -, ⟨-, rfl⟩ | ⟨-, -, rfl⟩ | ⟨-, -, -, rfl⟩ | ⟨-, -, -, rfl⟩⟩ | ⟨_, _, _, -, ⟨-, rfl⟩ | ⟨-, -, -, rfl⟩⟩) <;> decide
  cases h with
  | failed h =>
    cases h with
    | segments h => exact hs h
    | verify h f =>
      obtain ⟨-, _, _, _, -, f⟩ := f
      cases f <;> decide
    | claims => decide
    | done => decide
  | good => decide
  | bad => decide

theorem decMain_params {fmt : Bytes} : (decodeMain alg key jwt fmt nbf typ).params = 0 := by
  cases nbf <;> cases typ <;> rfl

theorem decSt_outs : OutsAt (decSt n alg key jwt nbf typ).mem [some (.stack 1), none, none] := by
  refine ⟨fun b hb => ?_, by simp⟩
  simp only [List.mem_cons, Option.some.injEq, reduceCtorEq, List.not_mem_nil, or_false] at hb
  subst hb
  exact ⟨rfl, _, rfl⟩

theorem heap_start : HeapWf ⟨0, []⟩ := ⟨List.nodup_nil, nofun⟩

/-- The whole run, given a run of `decode` of the model. -/
theorem dec_run (E : ExDecEnv env alg) (A : ExDecArgs fuel alg key jwt) (hn : NameOk name) (hb : (nbf && typ) = false) {r : DecOut} {h' : Heap} {v : BitVec 32}
    (he : decode env (some (exDecRequest alg key jwt nbf typ)) false true true s ⟨0, []⟩ = .ok (r, h')) (hr : r.rc < 2147483648)
    (hv : r.validation = some v) :
    ∃ st', runMain env fuel (decodeMain alg key jwt (decFormat name) nbf typ) s = .ok (.int 0, st') ∧
      st'.printed = some (decMessage name r.rc v) ∧ st'.heap = h' := by
  have hc := decode_call (nbf := nbf) (typ := typ) (st := decSt 1 alg key jwt nbf typ) E.garbage A (layMem_wf _ _ _) heap_start rfl decSt_outs (by simp) (by simp)
  obtain ⟨mem', e, D⟩ := decode_text (d := 0) hc he
  have g1 := D.validation (.stack 1) rfl
  rw [hv] at g1
  have g2 : mem' (.ext 0) = some (cells []) := D.kept.same (.ext 0) (by simp) (by simp)
  have t := dec_tail (env := env) (fuel := fuel) (s := s) (i := 2) (a := .null) (b := .null) (v := v) (out := []) (rest := .ret (.num 0)) hn hr rfl rfl (by omega) (by show 2 < 3; decide)
    rfl rfl e rfl g1 g2
  refine ⟨_, runMain_ok decMain_params ((decode_start hb A.key.1 A.jwt.1).trans (t.trans rfl)), ?_, rfl⟩
  simp only [St.printed, dropStack, upd_same, Option.map_some, toBytes_cells, List.nil_append]

/-! ## C85 -/

/-- **C85** The text of examples/*/decode.c with any algorithm, key and token, where decoding is defined (`DecDefined`) and no allocation
fails: it prints the return code and the validation result of the specification and returns 0; all memory has been given back,
unless the token is one of those for which blocks are lost (C49). -/
theorem C85_decode (E : ExDecEnv env alg) (A : ExDecArgs fuel alg key jwt) (hn : NameOk name) (hb : (nbf && typ) = false) (gd : s.good)
    (hd : DecDefined env (exDecRequest alg key jwt nbf typ) jwt) :
    ∃ rc v ds st', Answer env (exDecRequest alg key jwt nbf typ) jwt rc v ds ∧
      runMain env fuel (decodeMain alg key jwt (decFormat name) nbf typ) s = .ok (.int 0, st') ∧
      st'.printed = some (decMessage name rc v) ∧ (¬ LeakyToken jwt → st'.heap.live = []) := by
  obtain ⟨r, h', rc, v, ds, he, ha, rfl⟩ := C62_decode_flags (s := s) (h := ⟨0, []⟩) E.crypto (exDec_valid E A) (exDec_token A) gd exDec_key exDec_expect E.time
    hd true
  obtain ⟨st', e, p, rfl⟩ := dec_run (name := name) E A hn hb he (answer_small ha) rfl
  refine ⟨rc, v, ds, st', ha, e, p, fun hl => ?_⟩
  exact List.perm_nil.mp (C49_no_leak_partial E.crypto (exDec_token A) (Or.inl gd.grow) hl he)

end L8w8jwt.C
