import Verif.Props.ExampleTokens
import Verif.Props.TextFaults

/-!
# The default build

`L8W8JWT_ENABLE_EDDSA` is 0 unless it is defined otherwise (algs.h:100-105). The theorems about the text hold for both builds, with the
functions of each as they are after preprocessing (`prog`, Link.lean). Here is what the two builds have in common, and what not.
-/

namespace L8w8jwt

variable {env : Env} {e : Bool}

/-! ## The model does not depend on the build, except for EdDSA -/

theorem skipNested_build (cap r : Nat) (v : Int) (ts : List Tok) : skipNested { env with eddsa := e } cap r v ts = skipNested env cap r v ts := by
  induction ts with
  | nil => rfl
  | cons t ts ih => simp only [skipNested, ih]

theorem claimType_build (json : Bytes) (cap r : Nat) (v : Tok) (ts : List Tok) :
    claimType { env with eddsa := e } json cap r v ts = claimType env json cap r v ts := by
  unfold claimType
  simp only [skipNested_build]
  rfl

theorem claimsLoop_build (json : Bytes) (cap r fuel : Nat) (ts : List Tok) (cs : List Claim) :
    claimsLoop { env with eddsa := e } json cap r fuel ts cs = claimsLoop env json cap r fuel ts cs := by
  induction fuel generalizing ts cs with
  | zero => rfl
  | succ n ih =>
    rcases ts with _ | ⟨a, _ | ⟨b, ts⟩⟩
    · rfl
    · rfl
    · unfold claimsLoop
      simp only [claimType_build, ih]

theorem parseClaims_build (cs : List Claim) (q : Ptr) (n : Nat) : parseClaims { env with eddsa := e } cs q n = parseClaims env cs q n := by
  unfold parseClaims parseWithTokens
  simp only [claimsLoop_build]

theorem validateClaims_build (p : DecParams) (cs : List Claim) (v : VRes) : validateClaims { env with eddsa := e } p cs v = validateClaims env p cs v := rfl

theorem verifySwitch_build {alg : Int} (h : alg ≠ 13) (crt : Option env.crypto.PK) (key : Bytes) (kl : Nat) (msg hash sig : Bytes) (sl : Nat) :
    verifySwitch { env with eddsa := e } alg crt key kl msg hash sig sl = verifySwitch env alg crt key kl msg hash sig sl := by
  have h' : ¬ alg = L8W8JWT_ALG_ED25519 := h
  simp only [verifySwitch, if_neg h']

theorem verifyBody_build {p : DecParams} (h : p.alg ≠ 13) (sig : Bytes) (n : Nat) : verifyBody { env with eddsa := e } p sig n = verifyBody env p sig n := by
  have hs : ∀ crt key kl msg hash sl, verifySwitch { env with eddsa := e } p.alg crt key kl msg hash sig sl = verifySwitch env p.alg crt key kl msg hash sig sl :=
    fun crt key kl msg hash sl => verifySwitch_build (env := env) (e := e) h crt key kl msg hash sig sl
  unfold verifyBody
  refine bind_congr fun x => bind_congr fun c => ?_
  cases c with
  | error _ => rfl
  | ok c =>
    refine bind_congr fun j => bind_congr fun o => ?_
    cases o with
    | none => rfl
    | some o =>
      refine bind_congr fun m => ?_
      show (match verifyHash env.crypto p.alg m with | none => _ | some hash => _) = (match verifyHash env.crypto p.alg m with | none => _ | some hash => _)
      cases verifyHash env.crypto p.alg m with
      | none => rfl
      | some _ => exact hs _ _ _ _ _ _

theorem verifySignature_build {p : DecParams} (h : p.alg ≠ 13) (v : VRes) (q : Ptr) (n : Nat) :
    verifySignature { env with eddsa := e } p v q n = verifySignature env p v q n := by
  unfold verifySignature
  simp only [verifyBody_build h]

theorem validate_build {p : DecParams} (h : p.alg ≠ 13) : validateDecodingParams { env with eddsa := e } (some p) = validateDecodingParams env (some p) := by
  have h' : ¬ p.alg = L8W8JWT_ALG_ED25519 := h
  simp [validateDecodingParams, h']

theorem decode_build {p : DecParams} (h : p.alg ≠ 13) (a b c : Bool) : decode { env with eddsa := e } (some p) a b c = decode env (some p) a b c := by
  unfold decode decodeBody
  simp only [validate_build h, verifySignature_build h, parseClaims_build, validateClaims_build]

theorem decodeRaw_build {p : DecParams} (h : p.alg ≠ 13) (o : Bool) (a : RawArgs) : decodeRaw { env with eddsa := e } (some p) o a = decodeRaw env (some p) o a := by
  unfold decodeRaw decodeRawBody
  simp only [validate_build h, verifySignature_build h, parseClaims_build, validateClaims_build]

theorem signSwitch_build {p : EncParams} (h : p.alg ≠ 13) (key : Bytes) (kl : Nat) (msg : Bytes) :
    signSwitch { env with eddsa := e } p key kl msg = signSwitch env p key kl msg := by
  have h' : ¬ p.alg = L8W8JWT_ALG_ED25519 := h
  simp only [signSwitch, if_neg h']

theorem encode_build {p : EncParams} (h : p.alg ≠ 13) : encode { env with eddsa := e } (some p) = encode env (some p) := by
  have hw : ∀ sb, writeHeaderAndPayload { env with eddsa := e } sb p = writeHeaderAndPayload env sb p := fun _ => rfl
  unfold encode encodeBody writeSignature writeSignatureBody
  simp only [signSwitch_build h, hw]

namespace C
open Spec

variable {fuel d : Nat} {s : Sched} {st : St} {P : Blk}

theorem DecCall.build {p : DecParams} {os : List (Option Blk)} (c : DecCall env fuel st P p os) : DecCall { env with eddsa := e } fuel st P p os :=
  ⟨c.wf, c.heap, c.outs, c.params, c.garbage, c.size, c.typ⟩

theorem EncCall.build {p : EncParams} {w : EncPtrs} {O1 O2 : Blk} (c : EncCall env fuel st P p w O1 O2) : EncCall { env with eddsa := e } fuel st P p w O1 O2 :=
  ⟨c.wf, c.params, c.fits, c.out, c.outLength, c.outCell, c.outLengthCell, c.apart⟩

/-! ## Other algorithms: no difference -/

/-- **C89** For every algorithm but EdDSA, the texts of `l8w8jwt_decode` in the two builds do the same, where decoding is defined and no
allocation fails: both end without undefined behaviour, return the same code, store the same, leave the same heap, and show the same
claims. -/
theorem C89_decode_same_text {p : DecParams} {tok : Bytes} {O1 O2 O3 : Blk} (c : DecCall env fuel st P p [some O1, some O2, some O3]) (hc : CryptoOk env.crypto)
    (ha : p.alg ≠ 13) (hv : validateDecodingParams env (some p) = L8W8JWT_SUCCESS) (ht : TokenMem p tok) (gd : s.good) (hr : VerKeyReadable p)
    (hx : ExpectOk p) (hn : NowOk env.now) (hd : DecDefined env p tok) :
    ∃ (rc : Nat) (st1 st2 : St),
      runFun (cx { env with eddsa := true } fuel (d + 3)) Src.l8w8jwt_decode [.ptr (some (P, 0)), .ptr (some (O1, 0)), .ptr (some (O2, 0)), .ptr (some (O3, 0))] s st =
        .ok (.int rc, st1) ∧
      runFun (cx { env with eddsa := false } fuel (d + 3)) Src.l8w8jwt_decode [.ptr (some (P, 0)), .ptr (some (O1, 0)), .ptr (some (O2, 0)), .ptr (some (O3, 0))] s st =
        .ok (.int rc, st2) ∧
      st1.heap = st2.heap ∧ OnlyWrites st st1 [O1, O2, O3] ∧ OnlyWrites st st2 [O1, O2, O3] ∧
      st1.mem O1 = st2.mem O1 ∧ st1.mem O2 = st2.mem O2 ∧ st1.mem O3 = st2.mem O3 ∧
      (rc = L8W8JWT_SUCCESS → ∃ w ds, st1.mem O2 = some [w] ∧ ShowsClaims st1.mem w ds ∧ ShowsClaims st2.mem w ds ∧ st1.mem O3 = some [.int ds.length]) := by
  obtain ⟨r, h', rc, v, ds, he, -, rfl, -, -, hs⟩ := C62_decode (s := s) (h := st.heap) hc hv ht gd hr hx hn hd
  obtain ⟨m1, e1, D1⟩ := decode_text (d := d) (r := r) (h' := h') (c.build (e := true)) (by rw [decode_build ha]; exact he)
  obtain ⟨m2, e2, D2⟩ := decode_text (d := d) (r := r) (h' := h') (c.build (e := false)) (by rw [decode_build ha]; exact he)
  refine ⟨r.rc, _, _, e1, e2, rfl, Kept.only (os := [O1, O2, O3]) D1.kept, Kept.only (os := [O1, O2, O3]) D2.kept,
    (D1.validation O1 rfl).trans (D2.validation O1 rfl).symm, (D1.claims O2 rfl).trans (D2.claims O2 rfl).symm,
    (D1.length O3 rfl).trans (D2.length O3 rfl).symm, fun h => ?_⟩
  obtain ⟨arr, h1, h2, h3⟩ := hs h
  have g2 := D1.claims O2 rfl
  have g3 := D1.length O3 rfl
  rw [h1] at g2
  rw [h2] at g3
  exact ⟨_, ds, g2, showsClaims (D1.array arr h1).1 h3, showsClaims (D2.array arr h1).1 h3, g3⟩

/-- **C89** The same of `l8w8jwt_decode_raw`: the same code, validation result and texts. -/
theorem C89_raw_same_text {p : DecParams} {tok : Bytes} {O1 : Blk} {A1 L1 A2 L2 A3 L3 : Option Blk} (c : DecCall env fuel st P p [some O1, A1, L1, A2, L2, A3, L3])
    (hc : CryptoOk env.crypto) (ha : p.alg ≠ 13) (hv : validateDecodingParams env (some p) = L8W8JWT_SUCCESS) (ht : TokenMem p tok) (gd : s.good)
    (hr : VerKeyReadable p) (hx : ExpectOk p) (hn : NowOk env.now) (hd : DecDefined env p tok) (h1 : Paired A1 L1) (h2 : Paired A2 L2)
    (h3 : Paired A3 L3) :
    ∃ (rc : Nat) (v : BitVec 32) (x y z : Option Bytes) (st1 st2 : St), HandsOut p.alg tok x y z ∧
      runFun (cx { env with eddsa := true } fuel (d + 3)) Src.l8w8jwt_decode_raw
        [.ptr (some (P, 0)), .ptr (some (O1, 0)), optV A1, optV L1, optV A2, optV L2, optV A3, optV L3] s st = .ok (.int rc, st1) ∧
      runFun (cx { env with eddsa := false } fuel (d + 3)) Src.l8w8jwt_decode_raw
        [.ptr (some (P, 0)), .ptr (some (O1, 0)), optV A1, optV L1, optV A2, optV L2, optV A3, optV L3] s st = .ok (.int rc, st2) ∧
      st1.heap = st2.heap ∧
      ∀ st', st' = st1 ∨ st' = st2 → st'.mem O1 = some [.int v.toNat] ∧ HandedAt st.mem st'.mem A1 L1 x ∧ HandedAt st.mem st'.mem A2 L2 y ∧
        HandedAt st.mem st'.mem A3 L3 z ∧
        ∀ b, some b ∉ [some O1, A1, L1, A2, L2, A3, L3] → (∀ j, st.heap.tick ≤ j → b ≠ .heap j) → st'.mem b = st.mem b := by
  obtain ⟨b1, b2, b3, bad⟩ := paired_bad h1 h2 h3
  obtain ⟨r, h', rc, v, ds, x, y, z, he, -, hz, rfl, hrv, q1, q2, q3⟩ := C72_raw_answer (s := s) (h := st.heap) hc hv ht gd hr hx hn hd bad
  have run := fun b => decode_raw_text (env := { env with eddsa := b }) (d := d) (O1 := some O1) (c.build (e := b)) (by rw [decodeRaw_build ha]; exact he)
  obtain ⟨m1, e1, w1, D1⟩ := run true
  obtain ⟨m2, e2, w2, D2⟩ := run false
  refine ⟨r.rc, v, x, y, z, _, _, hz, e1, e2, rfl, fun st' h => ?_⟩
  rcases h with rfl | rfl
  · refine ⟨by have := w1 O1 rfl; rwa [hrv] at this, ?_, ?_, ?_, D1.kept.same⟩
    · exact handedAt b1 q1 D1.header D1.headerLength fun q n hq => D1.bytes q n (Or.inl hq)
    · exact handedAt b2 q2 D1.payload D1.payloadLength fun q n hq => D1.bytes q n (Or.inr (Or.inl hq))
    · exact handedAt b3 q3 D1.signature D1.signatureLength fun q n hq => D1.bytes q n (Or.inr (Or.inr hq))
  · refine ⟨by have := w2 O1 rfl; rwa [hrv] at this, ?_, ?_, ?_, D2.kept.same⟩
    · exact handedAt b1 q1 D2.header D2.headerLength fun q n hq => D2.bytes q n (Or.inl hq)
    · exact handedAt b2 q2 D2.payload D2.payloadLength fun q n hq => D2.bytes q n (Or.inr (Or.inl hq))
    · exact handedAt b3 q3 D2.signature D2.signatureLength fun q n hq => D2.bytes q n (Or.inr (Or.inr hq))

/-- **C89** For every algorithm but EdDSA, the texts of `l8w8jwt_encode` in the two builds do exactly the same, whatever allocations fail
(with `L8W8JWT_SMALL_STACK`: if none fails), where encoding is defined: they end without undefined behaviour with the same return value in the same state. -/
theorem C89_encode_same_text {p : EncParams} {w : EncPtrs} {O1 O2 : Blk} (c : EncCall env fuel st P p w O1 O2) (hc : CryptoOk env.crypto) (ha : p.alg ≠ 13)
    (hr : TextsReadable p) (hk : KeyReadable p) (hss : env.smallStack = false ∨ s.noAllocFail) (hd : EncDefined env p) :
    ∃ (rc : Nat) (st' : St), runFun (cx { env with eddsa := true } fuel (d + 3)) Src.l8w8jwt_encode [.ptr (some (P, 0))] s st = .ok (.int rc, st') ∧
      runFun (cx { env with eddsa := false } fuel (d + 3)) Src.l8w8jwt_encode [.ptr (some (P, 0))] s st = .ok (.int rc, st') := by
  obtain ⟨r, h', he⟩ := C64_encode_defined_oom (s := s) (h := st.heap) hc hr hk hss hd
  have n1 : nul w.out = .ptr (some (O1, 0)) := by rw [c.out]; rfl
  have n2 : nul w.outLength = .ptr (some (O2, 0)) := by rw [c.outLength]; rfl
  have run : ∀ b, _ := fun b => encode_text { env with eddsa := b } fuel d s st c.wf P p w c.params c.fits
    (by rw [n1]; intro b hb h; simp at hb; subst hb; exact c.apart.1 (Option.some.inj h))
    (by rw [n2]; intro b hb h; simp at hb; subst hb; exact c.apart.2.1 (Option.some.inj h))
    (by rw [n1, n2]; exact Or.inr (Or.inr fun h => c.apart.2.2 (Option.some.inj h))) r h' (by rw [encode_build ha]; exact he)
  exact ⟨r.rc, _, run true, run false⟩

/-! ## EdDSA is refused -/

/-- Nothing has happened. -/
theorem kept_all {os : List (Option Blk)} {m : Blk → Option (List Val)} (hw : Wf st) (k : Kept os st st.heap m) (h : ∀ b, some b ∈ os → m b = st.mem b) :
    m = st.mem := by
  funext x
  by_cases hx : some x ∈ os
  · exact h x hx
  by_cases hh : ∃ j, st.heap.tick ≤ j ∧ x = .heap j
  · obtain ⟨j, hj, rfl⟩ := hh
    rw [k.free j hj, hw.heap j hj]
  · exact k.same x hx fun j hj e => hh ⟨j, hj, e⟩

/-- **C89** The text of `l8w8jwt_decode` in the default build, with `alg` EdDSA, an out pointer for the result, a token and a key (of at most 8192
bytes): it returns `L8W8JWT_UNSUPPORTED_ALG`, and nothing has changed: the validation result too has the value it had before, if any. -/
theorem C89_decode_refused_text {p : DecParams} {O1 : Blk} {O2 O3 : Option Blk} (c : DecCall env fuel st P p [some O1, O2, O3]) (hb : env.eddsa = false) (ha : p.alg = 13)
    (h23 : O3 = none → O2 = none) (hj : p.jwt ≠ none) (hjl : 0 < p.jwtLength) (hk : p.verificationKey ≠ none)
    (hkl : 0 < p.verificationKeyLength ∧ p.verificationKeyLength ≤ 8192) :
    runFun (cx env fuel (d + 3)) Src.l8w8jwt_decode [.ptr (some (P, 0)), .ptr (some (O1, 0)), optV O2, optV O3] s st = .ok (.int Code.unsupported, st) := by
  have hv : validateDecodingParams env (some p) = Code.unsupported := by
    have k : L8W8JWT_MAX_KEY_SIZE = 8192 := rfl
    unfold validateDecodingParams
    simp only []
    rw [if_neg (by simp [hj, hk]), if_neg (by simp only [Bool.or_eq_true, decide_eq_true_eq]; omega), if_pos (by simp [hb, ha, L8W8JWT_ALG_ED25519])]
  have he : decode env (some p) false O2.isNone O3.isNone s st.heap = .ok ({ rc := Code.unsupported }, st.heap) := by
    unfold decode
    simp only [hv]
    rw [if_neg]
    · rfl
    · simp only [Bool.and_eq_true, Bool.not_eq_true', Option.isNone_iff_eq_none]
      rintro ⟨h1, h2⟩
      rw [h23 h2] at h1
      cases h1
  obtain ⟨m, e, D⟩ := decode_text (d := d) c he
  have hm : m = st.mem := by
    refine kept_all c.wf D.kept fun b hb => ?_
    simp only [List.mem_cons, List.not_mem_nil, or_false] at hb
    rcases hb with h | h | h
    · exact D.validation b h.symm
    · exact D.claims b h.symm
    · exact D.length b h.symm
  rw [hm] at e
  exact e

/-- **C89** The text of `l8w8jwt_encode` in the default build with `alg` EdDSA never makes a token: it ends without undefined behaviour, and hands
out nothing; if no allocation fails and the random generator can be seeded, it returns `L8W8JWT_UNSUPPORTED_ALG`. -/
theorem C89_encode_refused_text {p : EncParams} {w : EncPtrs} {O1 O2 : Blk} (c : EncCall env fuel st P p w O1 O2) (hb : env.eddsa = false) (ha : p.alg = 13)
    (hc : CryptoOk env.crypto) (hr : TextsReadable p) (hk : KeyReadable p) (hv : validateEncodingParams (some p) = L8W8JWT_SUCCESS) (gd : s.good)
    (hd : EncDefined env p) :
    ∃ (rc : Nat) (st' : St), runFun (cx env fuel (d + 3)) Src.l8w8jwt_encode [.ptr (some (P, 0))] s st = .ok (.int rc, st') ∧ TokenAt st st' O1 O2 none ∧
      rc = if env.crypto.seedOk then Code.unsupported else Code.seed := by
  obtain ⟨rc, t, st', an, e, T⟩ := C79_encode_text (d := d) c hc hr hk hv gd hd
  have hal : alg? p.alg = some ("EdDSA", .eddsa) := by rw [ha]; rfl
  have hf : EncCode env p (if env.crypto.seedOk then Code.unsupported else Code.seed) := by
    cases hs : env.crypto.seedOk with
    | true => exact .sign hal (.edOff hs hal hb)
    | false => exact .sign hal (.seed hs)
  have hne : (if env.crypto.seedOk then Code.unsupported else Code.seed) ≠ Code.success := by split <;> decide
  cases an with
  | failed h _ => exact ⟨rc, st', e, T, encCode_unique h hf⟩
  | done h => exact absurd (encCode_unique hf h) hne

/-! ## The programs in examples/eddsa -/

/-- **C89** examples/eddsa/encode.c in the default build (when no allocation fails): the key is not used, and the program reads a variable without a
value or gives NULL to `%s`, as it does not look at the return code. -/
theorem C89_encode_program_false (E : ExEnv env fuel) (gd : s.good) (hb : env.eddsa = false) :
    runMain env fuel Ex.eddsa_encode s = .error .uninit ∨ runMain env fuel Ex.eddsa_encode s = .error (.ub .nullDeref) := by
  have hx : (Ex.eddsa_encode, (13 : Int), "eddsa", Ex.eddsa_encode.ED25519_PRIVATE_KEY) ∈ encodeExamples := by simp [encodeExamples]
  obtain ⟨hc, hr, hk, hd, hv, -⟩ := ex_ready E hx
  obtain ⟨rc, st', e, T, hrc⟩ := C89_encode_refused_text (d := 0) (s := s) hc hb rfl E.crypto hr hk hv gd hd
  refine encode_failed E hx e T ?_
  rw [hrc]
  split <;> decide

/-- The text of examples/*/decode.c, if nothing is stored as the validation result: the program reads it anyway. -/
theorem dec_tail_undef {st st1 : St} {i : Nat} {rc : Int} {a b : Expr} {va vb : Val} {fmt : Bytes} {rest : Stmt}
    (h0 : st.fr.getD 0 .undef = .ptr (some (.stack 0, 0))) (h1 : st.fr.getD 1 .undef = .ptr (some (.stack 1, 0))) (hi : 1 < i) (hl : i < st.fr.length)
    (ha : eval (mx env fuel 4) a s st = .ok (va, st)) (hb : eval (mx env fuel 4) b s st = .ok (vb, st))
    (e : runFun (cx env fuel 3) Src.l8w8jwt_decode [.ptr (some (.stack 0, 0)), .ptr (some (.stack 1, 0)), va, vb] s st = .ok (.int rc, st1))
    (hf : st1.fr = st.fr) (hv : st1.mem (.stack 1) = some [.undef]) :
    exec (mx env fuel 4) (decTail fmt i a b rest) .run s st = .error .uninit := by
  have e1 : eval (mx env fuel 4) (.set i (.call "l8w8jwt_decode" (.cons (.loc 0) (.cons (.loc 1) (.cons a (.cons b .nil)))))) s st =
      .ok (.int rc, { st1 with fr := st.fr.set i (.int rc) }) := by
    simp only [eval, evalArgs, X.bind_apply, getLoc_apply, h0, h1, X.pure_apply, ha, hb]
    rw [mx_call (by decide), cx_fun _ _ _ rfl, e]
    simp only [setLoc_apply, hf]
  have g1 : (st.fr.set i (.int rc)).getD 1 .undef = .ptr (some (.stack 1, 0)) := by
    rw [← h1]
    simp [List.getD, show i ≠ 1 by omega]
  have g2 : (st.fr.set i (.int rc)).getD i .undef = .int rc := by
    simp [List.getD, hl]
  have hc := eval_success (c := mx env fuel 4) (i := i) (rc := rc) (s := s) (st := { st1 with fr := st.fr.set i (.int rc) }) g2
  have hld := eval_load_undef (c := mx env fuel 4) (t := .int .u32) (i := 1) (s := s) (st := { st1 with fr := st.fr.set i (.int rc) }) g1 rfl hv
  refine (exec_exp e1).trans (exec_exp_error ?_)
  have hargs : ∀ {x : Expr} {v : Val} {r : Args} {t : St}, eval (mx env fuel 4) x s t = .ok (v, t) → evalArgs (mx env fuel 4) r s t = .error .uninit →
      evalArgs (mx env fuel 4) (.cons x r) s t = .error .uninit := by
    intro x v r t hx hr
    simp only [evalArgs, X.bind_apply, hx, hr]
  have hlast : evalArgs (mx env fuel 4) (.cons (.load (.int .u32) (.loc 1)) .nil) s { st1 with fr := st.fr.set i (.int rc) } = .error .uninit := by
    simp only [evalArgs, X.bind_apply, hld]
  have h := hargs (x := .str fmt) rfl (hargs hc (hargs (eval_loc g2) hlast))
  simp only [eval, X.bind_apply] at h ⊢
  rw [h]

/-- **C89** examples/eddsa/decode.c in the default build reads a variable without a value, whatever the crypto library does and whatever allocations
fail: `l8w8jwt_decode` refuses the algorithm before it stores a validation result, and the program prints it without looking at
the return code. -/
theorem C89_decode_program_false (hg : ∀ i, -2147483648 ≤ (env.garbage i).end_ ∧ (env.garbage i).end_ < 2147483648)
    (hf : 4000 ≤ fuel) (hb : env.eddsa = false) : runMain env fuel Ex.eddsa_decode s = .error .uninit := by
  have hx : (Ex.eddsa_decode, (13 : Int), "eddsa", Ex.eddsa_decode.ED25519_PUBLIC_KEY, Ex.eddsa_decode.JWT, false, true) ∈ decodeExamples := by
    simp [decodeExamples]
  obtain ⟨⟨n, sch⟩, -, ha, h1, h2, h3, h4, h5, h6, h7, h8, h9⟩ := decodeExamples_facts _ hx
  simp only at h1 h5 h6 h7 h8 h9
  have hl : 0 < Ex.eddsa_decode.JWT.length := by rw [h1]; simp only [List.length_append, List.length_cons]; omega
  have A : ExDecArgs fuel 13 Ex.eddsa_decode.ED25519_PUBLIC_KEY Ex.eddsa_decode.JWT := ⟨by omega, by decide, ⟨h5, h6, h7⟩, ⟨h8, hl, by omega⟩⟩
  have hc := decode_call (env := env) (nbf := false) (typ := true) (st := decSt 1 13 Ex.eddsa_decode.ED25519_PUBLIC_KEY Ex.eddsa_decode.JWT false true) hg A
    (layMem_wf _ _ _) heap_start rfl decSt_outs (by simp) (by simp)
  have e := C89_decode_refused_text (d := 0) (s := s) hc hb rfl (fun _ => rfl) (by simp [exDecRequest]) hl (by simp [exDecRequest])
    ⟨h6, Nat.le_of_lt h7⟩
  rw [decodeExamples_main hx]
  exact runMain_error decMain_params ((decode_start rfl A.key.1 A.jwt.1).trans
    (dec_tail_undef rfl rfl (by omega) (by show 2 < 3; decide) rfl rfl e rfl rfl))

/-! ## Runs -/

/-- In the default build, executed as text: a good token and a changed one with HMAC, and the first with EdDSA, where the validation result is left
without a value. -/
example : seen (decodeText (toyDec (mkTok hdr1 pay1 (toyMac hdr1 pay1))) { toy with eddsa := false }) = accepted 0 2 5 ∧
    seen (decodeText (toyDec (mkTok hdr1 "{\"sub\":\"b\"}" (toyMac hdr1 pay1))) { toy with eddsa := false }) = accepted 128 2 5 ∧
    seen (decodeText (toyDec (mkTok hdr1 pay1 (toyMac hdr1 pay1)) 13) { toy with eddsa := false }) = some ⟨.int 800, some [.undef], some [.undef], 0⟩ := by
  decide +kernel

/-- With EdDSA, the same request is not refused: the key is. -/
example : seen (decodeText (toyDec (mkTok hdr1 pay1 (toyMac hdr1 pay1)) 13)) = failed Code.wrongKey 0 := by decide +kernel

/-- The program of EdDSA that decodes. -/
example : fault (runMain { toy with eddsa := false } 4000 Ex.eddsa_decode calm) = some .uninit := by decide +kernel

end C

end L8w8jwt
