import Verif.C.DecodeParts
import Verif.C.VersionProof
/-!
# The text of src/encode.c:590-638: token, initialisation and validation of the parameters
-/

namespace L8w8jwt.C
open L8w8jwt L8w8jwt.C.Src

/-! ## Memory that contains the objects of another memory -/

/-- Every object of `m0` is in `m`, with the same content. -/
def Over (m0 m : Blk → Option (List Val)) : Prop := ∀ b l, m0 b = some l → m b = some l

theorem Over.refl (m : Blk → Option (List Val)) : Over m m := fun _ _ h => h

theorem Over.cont {m0 m : Blk → Option (List Val)} (h : Over m0 m) {b : Blk} {l : List Val} (hc : cont globs m0 b = some l) :
    cont globs m b = some l := by
  cases b <;> first | exact hc | exact h _ _ hc

theorem Over.pts {m0 m : Blk → Option (List Val)} (h : Over m0 m) {v : Val} {x : Option Bytes} (hp : Pts globs m0 v x) : Pts globs m v x := by
  cases x with
  | none => exact hp
  | some bs =>
    obtain ⟨b, o, l, rfl, h1, h2, h3⟩ := hp
    exact ⟨b, o, l, rfl, h.cont h1, h2, h3⟩

theorem Over.claims {m0 m : Blk → Option (List Val)} (h : Over m0 m) {v : Val} {x : Option (List Claim)} (hp : ClaimsAt m0 v x) :
    ClaimsAt m v x := by
  cases x with
  | none => exact hp
  | some cs =>
    obtain ⟨b, o, l, rfl, h1, h2, h3⟩ := hp
    refine ⟨b, o, l, rfl, h.cont h1, h2, fun i c hc => ?_⟩
    obtain ⟨kv, vv, a1, a2, a3, a4, a5, a6, a7, a8⟩ := h3 i c hc
    exact ⟨kv, vv, a1, a2, a3, a4, a5, h.pts a6, h.pts a7, a8⟩

theorem Over.slot {m0 m : Blk → Option (List Val)} (h : Over m0 m) {v : Val} {n : Bool} (hp : Slot m0 v n) : Slot m v n := by
  cases n with
  | true => exact hp
  | false =>
    obtain ⟨k, b, o, l, rfl, h1, h2, h3⟩ := hp
    exact ⟨k, b, o, l, rfl, h1, h _ _ h2, h3⟩

theorem Over.upd {m0 m : Blk → Option (List Val)} (h : Over m0 m) {b : Blk} (hb : m0 b = none) (x : Option (List Val)) :
    Over m0 (upd m b x) := by
  intro b' l hl
  have : b' ≠ b := by rintro rfl; rw [hb] at hl; cases hl
  rw [upd_ne _ _ this]
  exact h _ _ hl

theorem Over.frame {m0 m m' : Blk → Option (List Val)} (h : Over m0 m) {B : Blk} {bid : Nat} (hf : Frame m m' B bid) (h1 : m0 B = none)
    (h2 : m0 (.heap bid) = none) : Over m0 m' := by
  intro b l hl
  rw [hf b (by rintro rfl; rw [h1] at hl; cases hl) (by rintro rfl; rw [h2] at hl; cases hl)]
  exact h _ _ hl

theorem Over.trans {m0 m m' : Blk → Option (List Val)} (h : Over m0 m) (h' : Over m m') : Over m0 m' := fun b l hl => h' b l (h b l hl)

/-- Pointers to objects of `m0` do not point to others. -/
theorem apart_old {m0 : Blk → Option (List Val)} {v : Val} {b : Blk} {l : List Val} (hv : v.blk = some b) (hc : cont globs m0 b = some l)
    {bs : List Blk} (h : ∀ x ∈ bs, x.own = true ∧ m0 x = none) : Apart v bs := by
  intro x hx hvx
  obtain rfl : b = x := by rw [hv] at hvx; simpa using hvx
  obtain ⟨h1, h2⟩ := h b hx
  rw [cont_own h1, h2] at hc
  cases hc

theorem Pts.apart {m0 : Blk → Option (List Val)} {v : Val} {m : Option Bytes} (hp : Pts globs m0 v m) {bs : List Blk}
    (h : ∀ x ∈ bs, x.own = true ∧ m0 x = none) : Apart v bs := by
  cases hv : v.blk with
  | none => intro x hx hb; rw [hv] at hb; cases hb
  | some b =>
    obtain ⟨l, hl⟩ := hp.known hv
    exact apart_old hv hl h

/-! ## The parameters -/

/-- The pointers in `struct l8w8jwt_encoding_params`. -/
structure EncPtrs where
  iss : Val
  sub : Val
  aud : Val
  jti : Val
  hc : Val
  pc : Val
  key : Val
  pw : Val
  out : Val
  outLength : Val

/-- The members of `struct l8w8jwt_encoding_params`. -/
def encCells (p : EncParams) (w : EncPtrs) : List Val :=
  [.int p.alg, w.iss, .int p.issLength, w.sub, .int p.subLength, w.aud, .int p.audLength, w.jti, .int p.jtiLength, .int p.exp, .int p.nbf,
   .int p.iat, w.hc, .int p.headerClaimsCount, w.pc, .int p.payloadClaimsCount, w.key, .int p.secretKeyLength, w.pw,
   .int p.secretKeyPwLength, w.out, w.outLength]

/-- The object `P` holds the parameters `p`. -/
structure EncAt (mem : Blk → Option (List Val)) (P : Blk) (p : EncParams) (w : EncPtrs) : Prop where
  own : P.own = true
  cells : mem P = some (encCells p w)
  iss : Pts globs mem (nul w.iss) p.iss.bytes
  sub : Pts globs mem (nul w.sub) p.sub.bytes
  aud : Pts globs mem (nul w.aud) p.aud.bytes
  jti : Pts globs mem (nul w.jti) p.jti.bytes
  hc : ClaimsAt mem (nul w.hc) p.headerClaims
  pc : ClaimsAt mem (nul w.pc) p.payloadClaims
  key : Pts globs mem (nul w.key) p.secretKey
  pw : Pts globs mem (nul w.pw) p.secretKeyPw
  out : Slot mem (nul w.out) p.outNull
  outLength : Slot mem (nul w.outLength) p.outLengthNull
  alg : -2147483648 ≤ p.alg ∧ p.alg < 2147483648
  issLength : p.issLength < 18446744073709551616
  subLength : p.subLength < 18446744073709551616
  audLength : p.audLength < 18446744073709551616
  jtiLength : p.jtiLength < 18446744073709551616
  exp : -9223372036854775808 ≤ p.exp ∧ p.exp < 9223372036854775808
  nbf : -9223372036854775808 ≤ p.nbf ∧ p.nbf < 9223372036854775808
  iat : -9223372036854775808 ≤ p.iat ∧ p.iat < 9223372036854775808
  hcCount : p.headerClaimsCount < 18446744073709551616
  pcCount : p.payloadClaimsCount < 18446744073709551616
  keyLength : p.secretKeyLength < 18446744073709551616
  pwLength : p.secretKeyPwLength < 18446744073709551616

theorem EncAt.over {m0 m : Blk → Option (List Val)} {P : Blk} {p : EncParams} {w : EncPtrs} (hE : EncAt m0 P p w) (h : Over m0 m) :
    EncAt m P p w :=
  { hE with
    cells := h _ _ hE.cells
    iss := h.pts hE.iss
    sub := h.pts hE.sub
    aud := h.pts hE.aud
    jti := h.pts hE.jti
    hc := h.claims hE.hc
    pc := h.claims hE.pc
    key := h.pts hE.key
    pw := h.pts hE.pw
    out := h.slot hE.out
    outLength := h.slot hE.outLength }

theorem EncAt.cont {mem : Blk → Option (List Val)} {P : Blk} {p : EncParams} {w : EncPtrs} (hE : EncAt mem P p w) :
    C.cont globs mem P = some (encCells p w) := (cont_own hE.own).trans hE.cells

theorem asTy_nulP {v : Val} {x : Option (Blk × Int)} (cs : Bool) (h : nul v = .ptr x) : asTy cs .ptr v = .ok (nul v) := by
  unfold nul at h ⊢
  split
  · rfl
  · rename_i hv
    split at h
    · exact absurd rfl hv
    · rw [h]; rfl

theorem Slot.ptr {mem : Blk → Option (List Val)} {v : Val} {n : Bool} (h : Slot mem v n) :
    (n = true ∧ v = .ptr none) ∨ (n = false ∧ ∃ b o l, v = .ptr (some (b, ((o : Nat) : Int))) ∧ b.own = true ∧ mem b = some l ∧ o < l.length) := by
  cases n with
  | true => exact Or.inl ⟨rfl, h⟩
  | false =>
    obtain ⟨k, b, o, l, rfl, h1, h2, h3⟩ := h
    exact Or.inr ⟨rfl, b, o, l, rfl, h1, h2, by omega⟩

theorem ClaimsAt.ptr {mem : Blk → Option (List Val)} {v : Val} {x : Option (List Claim)} (h : ClaimsAt mem v x) :
    (x = none ∧ v = .ptr none) ∨ (x ≠ none ∧ ∃ b o, v = .ptr (some (b, ((o : Nat) : Int)))) := by
  cases x with
  | none => exact Or.inl ⟨rfl, h⟩
  | some cs =>
    obtain ⟨b, o, l, rfl, -⟩ := h
    exact Or.inr ⟨by simp, b, o, rfl⟩

/-! ## l8w8jwt_encoding_params_init -/

/-- The pointers in zeroed parameters. -/
def zeroEnc : EncPtrs :=
  ⟨.int 0, .int 0, .int 0, .int 0, .int 0, .int 0, .int 0, .int 0, .int 0, .int 0⟩

theorem upd_noStack {st : St} (hw : Wf st) {b : Blk} {l : List Val} (h : st.mem b = some l) (x : Option (List Val)) :
    dropStack st.stk (upd st.mem b x) = upd st.mem b x := by
  rw [dropStack_upd hw h, dropStack_wf hw]

/-- src/encode.c:605-613. -/
theorem encoding_params_init_text (env : Env) (fuel d : Nat) (s : Sched) (st : St) (hw : Wf st) (P : Blk) (l : List Val) (hP : P.own = true)
    (h : st.mem P = some l) (hl : l.length = 22) :
    runFun (cx env fuel d) l8w8jwt_encoding_params_init [.ptr (some (P, 0))] s st =
      .ok (.undef, { st with mem := upd st.mem P (some (encCells encodingParamsInit zeroEnc)) }) := by
  apply run_of_wp
  apply wp_runFun
  simp only [l8w8jwt_encoding_params_init, Nat.reduceSub, List.replicate, List.append_nil]
  xs []
  refine wp_memset env fuel d (v := 0) (n := 22) hP (by exact h) (by omega) (by simp [hl]) ?_
  have e : poke l (0 : Int).toNat (List.replicate (22 : Int).toNat (.int (0 % 256))) = List.replicate 22 (.int 0) := by
    simp [poke, hl]
  rw [e]
  xs []
  refine wp_storeV hP (l := List.replicate 22 (.int 0)) (w := .int (-2)) (by exact upd_same _ _ _) (by omega) (by simp) (by rfl) ?_
  xs [upd_upd]
  have hd := upd_noStack hw h (some (encCells encodingParamsInit zeroEnc))
  rw [← hd]
  rfl

theorem encoding_params_init_null (env : Env) (fuel d : Nat) (s : Sched) (st : St) (hw : Wf st) :
    runFun (cx env fuel d) l8w8jwt_encoding_params_init [.ptr none] s st = .ok (.undef, st) := by
  apply run_of_wp
  apply wp_runFun
  simp only [l8w8jwt_encoding_params_init, Nat.reduceSub, List.replicate, List.append_nil]
  xs [dropStack_wf hw]

/-- The parameters after `l8w8jwt_encoding_params_init`. -/
theorem init_encAt {mem : Blk → Option (List Val)} {P : Blk} (hP : P.own = true) (h : mem P = some (encCells encodingParamsInit zeroEnc)) :
    EncAt mem P encodingParamsInit zeroEnc := by
  refine ⟨hP, h, rfl, rfl, rfl, rfl, rfl, rfl, rfl, rfl, rfl, rfl, ?_, ?_, ?_, ?_, ?_, ?_, ?_, ?_, ?_, ?_, ?_, ?_⟩ <;> decide

/-! ## l8w8jwt_validate_encoding_params -/

theorem wp_validate_enc_null (env : Env) (fuel d : Nat) {s : Sched} {st : St} (hs : ∀ j, st.stk ≤ j → st.mem (.stack j) = none)
    {Q : Val → St → Prop} (hq : Q (.int (validateEncodingParams none)) st) :
    WP ((cx env fuel (d + 1)).call "l8w8jwt_validate_encoding_params" [.ptr none]) s st Q := by
  rw [cx_fun _ _ _ (fn := l8w8jwt_validate_encoding_params) rfl]
  apply wp_runFun
  simp only [l8w8jwt_validate_encoding_params, Nat.reduceSub, List.replicate, List.append_nil]
  xs []
  rw [dropStack_none hs]
  exact hq

/-- src/encode.c:615-638. -/
theorem wp_validate_enc (env : Env) (fuel d : Nat) {s : Sched} {st : St}
    (hs : ∀ j, st.stk ≤ j → st.mem (.stack j) = none) {P : Blk} {p : EncParams} {w : EncPtrs}
    (hE : EncAt st.mem P p w) {Q : Val → St → Prop} (hq : Q (.int (validateEncodingParams (some p))) st) :
    WP ((cx env fuel (d + 1)).call "l8w8jwt_validate_encoding_params" [.ptr (some (P, 0))]) s st Q := by
  have hP := hE.cont
  rw [cx_fun _ _ _ (fn := l8w8jwt_validate_encoding_params) rfl]
  apply wp_runFun
  simp only [l8w8jwt_validate_encoding_params, Nat.reduceSub, List.replicate, List.append_nil]
  have hk := hE.key
  unfold validateEncodingParams at hq
  simp only at hq
  xs []
  refine wp_ld (c := cx env fuel d) (by exact hP) (by omega) (by rfl) (asTy_nul _ hk) ?_
  cases hkw : p.secretKey with
  | none =>
    rw [hkw] at hk hq
    rw [show nul w.key = .ptr none from hk]
    xs []
    rw [dropStack_none hs]
    exact hq
  | some km =>
  rw [hkw] at hk hq
  obtain ⟨bk, ok, lk, ek, -⟩ := hk
  rw [ek]
  xs []
  obtain ⟨hn, e1⟩ | ⟨hn, b1, o1, l1, e1, -⟩ := hE.out.ptr
  · refine wp_ld (c := cx env fuel d) (by exact hP) (by omega) (by rfl) (asTy_nulP _ e1) ?_
    rw [e1]
    xs []
    rw [dropStack_none hs]
    simpa [hn] using hq
  refine wp_ld (c := cx env fuel d) (by exact hP) (by omega) (by rfl) (asTy_nulP _ e1) ?_
  rw [e1]
  xs []
  obtain ⟨hn2, e2⟩ | ⟨hn2, b2, o2, l2, e2, -⟩ := hE.outLength.ptr
  · refine wp_ld (c := cx env fuel d) (by exact hP) (by omega) (by rfl) (asTy_nulP _ e2) ?_
    rw [e2]
    xs []
    rw [dropStack_none hs]
    simpa [hn2] using hq
  refine wp_ld (c := cx env fuel d) (by exact hP) (by omega) (by rfl) (asTy_nulP _ e2) ?_
  rw [e2]
  simp only [hn, hn2, Option.isNone_some, Bool.or_self, Bool.false_eq_true, if_false] at hq
  xs []
  refine wp_ld (c := cx env fuel d) (by exact hP) (by omega) (by rfl) (asTy_u64 _ hE.keyLength) ?_
  by_cases h1 : p.secretKeyLength = 0
  · rw [if_pos (by simp [h1])] at hq
    rw [h1]
    xs []
    rw [dropStack_none hs]
    exact hq
  xs [h1]
  refine wp_ld (c := cx env fuel d) (by exact hP) (by omega) (by rfl) (asTy_u64 _ hE.keyLength) ?_
  by_cases h3 : 8192 < p.secretKeyLength
  · rw [if_pos (by simp [L8W8JWT_MAX_KEY_SIZE, h3])] at hq
    xs [show (8192 : Int) < (p.secretKeyLength : Int) by omega]
    rw [dropStack_none hs]
    exact hq
  rw [if_neg (by simp [L8W8JWT_MAX_KEY_SIZE, h1]; omega)] at hq
  xs [show ¬ (8192 : Int) < (p.secretKeyLength : Int) by omega]
  have hlast : ∀ {Q : Val → St → Prop}, Q (.int ((if (p.headerClaims.isSome && decide (p.headerClaimsCount = 0)) = true then L8W8JWT_INVALID_ARG
      else L8W8JWT_SUCCESS : Nat) : Int)) st → WP (exec (cx env fuel d) (.ite (.land (.cmp .ne (.load .ptr (.padd 1 (.loc 0) (.num 12))) .null)
        (.cmp .eq (.load (.int .u64) (.padd 1 (.loc 0) (.num 13))) (.num 0))) (.ret (.num 200)) .skip) .run) s
        ⟨[.ptr (some (P, 0))], st.heap, st.mem, st.stk⟩ (Then (cx env fuel d) (.ret (.num 0)) s (Return st Q)) := by
    intro Q hq
    xs []
    obtain ⟨hc, e3⟩ | ⟨hc, b3, o3, e3⟩ := hE.hc.ptr
    · refine wp_ld (c := cx env fuel d) (by exact hP) (by omega) (by rfl) (asTy_nulP _ e3) ?_
      rw [e3]
      xs []
      rw [dropStack_none hs]
      simpa [hc] using hq
    refine wp_ld (c := cx env fuel d) (by exact hP) (by omega) (by rfl) (asTy_nulP _ e3) ?_
    rw [e3]
    xs []
    refine wp_ld (c := cx env fuel d) (by exact hP) (by omega) (by rfl) (asTy_u64 _ hE.hcCount) ?_
    have hc' : p.headerClaims.isSome = true := by cases hh : p.headerClaims <;> simp_all
    by_cases h4 : p.headerClaimsCount = 0
    · rw [if_pos (by simp [h4, hc'])] at hq
      rw [h4]
      xs []
      rw [dropStack_none hs]
      exact hq
    · rw [if_neg (by simp [h4])] at hq
      xs [h4]
      rw [dropStack_none hs]
      exact hq
  obtain ⟨hc, e3⟩ | ⟨hc, b3, o3, e3⟩ := hE.pc.ptr
  · refine wp_ld (c := cx env fuel d) (by exact hP) (by omega) (by rfl) (asTy_nulP _ e3) ?_
    rw [e3]
    xi []
    rw [if_neg (by simp [hc])] at hq
    exact hlast hq
  refine wp_ld (c := cx env fuel d) (by exact hP) (by omega) (by rfl) (asTy_nulP _ e3) ?_
  rw [e3]
  xs []
  refine wp_ld (c := cx env fuel d) (by exact hP) (by omega) (by rfl) (asTy_u64 _ hE.pcCount) ?_
  have hc' : p.payloadClaims.isSome = true := by cases hh : p.payloadClaims <;> simp_all
  by_cases h4 : p.payloadClaimsCount = 0
  · rw [if_pos (by simp [h4, hc'])] at hq
    rw [h4]
    xs []
    rw [dropStack_none hs]
    exact hq
  · rw [if_neg (by simp [h4])] at hq
    xi [h4]
    exact hlast hq

/-! ## write_token -/

/-- Memory after `l8w8jwt_encode`: `*params->out`, `*params->out_length` and the new block. -/
def encMem (mem : Blk → Option (List Val)) (w : EncPtrs) (o : EncOut) : Blk → Option (List Val) :=
  bufMem mem (nul w.out) (nul w.outLength) 0 ⟨o.rc, o.out, o.outLength⟩

/-- src/encode.c:590-603. -/
theorem wp_write_token (env : Env) (fuel d : Nat) {s : Sched} {st : St} (hw : Wf st) {B P : Blk} {bid : Nat} {sb : Bytes} {p : EncParams}
    {w : EncPtrs} (hB : BufAt st.mem B bid 1024 sb) (hE : EncAt st.mem P p w) (hn1 : p.outNull = false) (hn2 : p.outLengthNull = false)
    (hsz : sb.length + 1 < 18446744073709551616) (ha1 : Apart (nul w.out) [P, B, .heap bid]) (ha2 : Apart (nul w.outLength) [P, B, .heap bid])
    (hsep : Sep (nul w.out) (nul w.outLength)) {o : EncOut} {h' : Heap} (hr : writeToken sb s st.heap = .ok (o, h'))
    {Q : Val → St → Prop} (hq : Q (.int o.rc) { st with heap := h', mem := encMem st.mem w o }) :
    WP ((cx env fuel (d + 1)).call "write_token" [.ptr (some (B, 0)), .ptr (some (P, 0))]) s st Q := by
  have hP := hE.cont
  obtain ⟨-, hBne, hBl, ⟨g, hBs⟩, rest, hBa⟩ := id hB
  have hBo := hB.1
  have hBc : cont globs st.mem B = some [.ptr (some (.heap bid, 0)), .int sb.length, .int (1024 : Nat), .int (1 : Nat), g] := (cont_own hBo).trans hBs
  rcases hE.out.ptr with ⟨hn, -⟩ | ⟨-, b1, o1, l1, e1, hb1, hm1, ho1⟩
  · rw [hn1] at hn; cases hn
  rcases hE.outLength.ptr with ⟨hn, -⟩ | ⟨-, b2, o2, l2, e2, hb2, hm2, ho2⟩
  · rw [hn2] at hn; cases hn
  rw [e1] at ha1
  rw [e2] at ha2
  rw [e1, e2] at hsep
  have h12 : b1 ≠ b2 := hsep.ne
  have h1P : b1 ≠ P := fun h => ha1 P (by simp) (by rw [h]; rfl)
  have h1B : b1 ≠ B := fun h => ha1 B (by simp) (by rw [h]; rfl)
  have h1i : b1 ≠ .heap bid := fun h => ha1 (.heap bid) (by simp) (by rw [h]; rfl)
  have h2P : b2 ≠ P := fun h => ha2 P (by simp) (by rw [h]; rfl)
  have h2B : b2 ≠ B := fun h => ha2 B (by simp) (by rw [h]; rfl)
  have h2i : b2 ≠ .heap bid := fun h => ha2 (.heap bid) (by simp) (by rw [h]; rfl)
  have hPt := hw.freshOwn hE.cells
  have hBt := hw.freshOwn hBs
  have h1t := hw.freshOwn hm1
  have h2t := hw.freshOwn hm2
  have hit : (Blk.heap bid) ≠ .heap st.heap.tick := hw.freshOwn hBa
  rw [cx_fun _ _ _ (fn := write_token) rfl]
  apply wp_runFun
  simp only [write_token, Nat.reduceSub, List.replicate, List.append_nil]
  xs []
  refine wp_ld (c := cx env fuel d) (by exact hP) (by omega) (by rfl) (asTy_nulP _ e1) ?_
  rw [e1]
  xs []
  refine wp_ld (c := cx env fuel d) (by exact hBc) (by omega) (by rfl) (asTy_u64 _ (by omega)) ?_
  xs []
  apply wp_malloc
  simp only [writeToken] at hr
  obtain ⟨q, h1, hal, hr⟩ := M.bind_inv hr
  unfold alloc at hal
  split
  · rename_i hfail
    rw [if_pos hfail] at hal
    cases hal
    cases hr
    xs []
    refine wp_storeV (l := l1) hb1 (by exact hm1) (by omega) (by omega) rfl ?_
    xs []
    refine wp_ld (c := cx env fuel d) (l := encCells p w) ?_ (by omega) (by rfl) (asTy_nulP _ e1) ?_
    · exact (cont_upd h1P.symm).trans hP
    rw [e1]
    refine wp_loadV (c := cx env fuel d) ((cont_own hb1).trans (upd_same _ _ _)) (v := .ptr none) (by omega) (get_set (by omega)) rfl ?_
    xs [dropStack_upd hw hm1, dropStack_wf hw]
    simp only [encMem, bufMem, e1, wr_some hm1, poke_one _ ho1, newBlk, ptrVal, wr_nil, List.map_nil, Option.toList] at hq
    exact hq
  · rename_i hfail
    rw [if_neg hfail] at hal
    cases hal
    cases hr
    xs []
    have hk : ((sb.length : Nat) : Int) + 1 = ((sb.length + 1 : Nat) : Int) := by omega
    rw [hk, Int.toNat_natCast]
    refine wp_storeV (l := l1) hb1 (by exact (upd_ne _ _ h1t).trans hm1) (by omega) (by omega) rfl ?_
    obtain ⟨M1, hM1⟩ : ∃ M1, M1 = upd (upd st.mem (.heap st.heap.tick) (some (List.replicate (sb.length + 1) .undef))) b1
        (some (l1.set (o1 : Int).toNat (.ptr (some (.heap st.heap.tick, 0))))) := ⟨_, rfl⟩
    have c1 : ∀ b, b ≠ b1 → b ≠ .heap st.heap.tick → M1 b = st.mem b := by
      intro b hx hy
      rw [hM1, upd_ne _ _ hx, upd_ne _ _ hy]
    have c2 : M1 b1 = some (l1.set (o1 : Int).toNat (.ptr (some (.heap st.heap.tick, 0)))) := by rw [hM1, upd_same]
    have c3 : M1 (.heap st.heap.tick) = some (List.replicate (sb.length + 1) .undef) := by
      rw [hM1, upd_ne _ _ h1t.symm, upd_same]
    rw [← hM1]
    xs []
    refine wp_ld (c := cx env fuel d) (l := encCells p w) ?_ (by omega) (by rfl) (asTy_nulP _ e1) ?_
    · exact (cont_own hE.own).trans ((c1 _ h1P.symm hPt).trans hE.cells)
    rw [e1]
    refine wp_loadV (c := cx env fuel d) ((cont_own hb1).trans c2) (v := .ptr (some (.heap st.heap.tick, 0))) (by omega) (get_set (by omega)) rfl ?_
    xs []
    refine wp_ld (c := cx env fuel d) (l := encCells p w) ?_ (by omega) (by rfl) (asTy_nulP _ e2) ?_
    · exact (cont_own hE.own).trans ((c1 _ h1P.symm hPt).trans hE.cells)
    rw [e2]
    xs []
    refine wp_ld (c := cx env fuel d) (l := [.ptr (some (.heap bid, 0)), .int sb.length, .int (1024 : Nat), .int (1 : Nat), g]) ?_ (by omega) (by rfl)
      (asTy_u64 _ (by omega)) ?_
    · exact (cont_own hBo).trans ((c1 _ h1B.symm hBt).trans hBs)
    refine wp_storeV (l := l2) (w := .int sb.length) hb2 (by exact (c1 _ h12.symm h2t).trans hm2) (by omega) (by omega) (by rfl) ?_
    obtain ⟨M2, hM2⟩ : ∃ M2, M2 = upd M1 b2 (some (l2.set (o2 : Int).toNat (.int sb.length))) := ⟨_, rfl⟩
    have d1 : ∀ b, b ≠ b2 → M2 b = M1 b := fun b hx => by rw [hM2, upd_ne _ _ hx]
    rw [← hM2]
    have d3 : M2 (.heap st.heap.tick) = some (List.replicate (sb.length + 1) .undef) := (d1 _ h2t.symm).trans c3
    have dP : cont globs M2 P = some (encCells p w) :=
      (cont_own hE.own).trans ((d1 _ h2P.symm).trans ((c1 _ h1P.symm hPt).trans hE.cells))
    have dB : cont globs M2 B = some [.ptr (some (.heap bid, 0)), .int sb.length, .int (1024 : Nat), .int (1 : Nat), g] :=
      (cont_own hBo).trans ((d1 _ h2B.symm).trans ((c1 _ h1B.symm hBt).trans hBs))
    have d2 : cont globs M2 b1 = some (l1.set (o1 : Int).toNat (.ptr (some (.heap st.heap.tick, 0)))) := (cont_own hb1).trans ((d1 _ h12).trans c2)
    xs []
    refine wp_ld (c := cx env fuel d) (by exact dP) (by omega) (by rfl) (asTy_nulP _ e1) ?_
    rw [e1]
    refine wp_loadV (c := cx env fuel d) (by exact d2) (v := .ptr (some (.heap st.heap.tick, 0))) (by omega) (get_set (by omega)) rfl ?_
    xs []
    refine wp_ld (c := cx env fuel d) (by exact dB) (by omega) (by rfl) (asTy_u64 _ (by omega)) ?_
    xs []
    refine wp_paddV (c := cx env fuel d) (l := List.replicate (sb.length + 1) .undef) ((cont_own rfl).trans d3) (by omega) (by simp; omega) ?_
    xs []
    refine wp_storeV (l := List.replicate (sb.length + 1) .undef) (w := .int 0) rfl (by exact d3) (by omega) (by simp) (by rfl) ?_
    obtain ⟨M3, hM3⟩ : ∃ M3, M3 = upd M2 (.heap st.heap.tick) (some ((List.replicate (sb.length + 1) Val.undef).set (0 + (sb.length : Int)).toNat (.int 0))) :=
      ⟨_, rfl⟩
    have f1 : ∀ b, b ≠ .heap st.heap.tick → M3 b = M2 b := fun b hx => by rw [hM3, upd_ne _ _ hx]
    have f3 : M3 (.heap st.heap.tick) = some ((List.replicate (sb.length + 1) Val.undef).set (0 + (sb.length : Int)).toNat (.int 0)) := by
      rw [hM3, upd_same]
    rw [← hM3]
    have fP : cont globs M3 P = some (encCells p w) := by rw [hM3, cont_upd hPt]; exact dP
    have fB : cont globs M3 B = some [.ptr (some (.heap bid, 0)), .int sb.length, .int (1024 : Nat), .int (1 : Nat), g] := by
      rw [hM3, cont_upd hBt]; exact dB
    have f2 : cont globs M3 b1 = some (l1.set (o1 : Int).toNat (.ptr (some (.heap st.heap.tick, 0)))) := by
      rw [hM3, cont_upd h1t]; exact d2
    have fA : cont globs M3 (.heap bid) = some (cells sb ++ rest) :=
      (cont_own rfl).trans ((f1 _ hit).trans ((d1 _ h2i.symm).trans ((c1 _ h1i.symm hit).trans hBa)))
    xs []
    refine wp_ld (c := cx env fuel d) (by exact fP) (by omega) (by rfl) (asTy_nulP _ e1) ?_
    rw [e1]
    refine wp_loadV (c := cx env fuel d) (by exact f2) (v := .ptr (some (.heap st.heap.tick, 0))) (by omega) (get_set (by omega)) rfl ?_
    xs []
    refine wp_loadV (c := cx env fuel d) (by exact fB) (v := .ptr (some (.heap bid, 0))) (by omega) (by rfl) rfl ?_
    xs []
    refine wp_ld (c := cx env fuel d) (by exact fB) (by omega) (by rfl) (asTy_u64 _ (by omega)) ?_
    xs []
    refine wp_memcpy env fuel d (l' := cells sb ++ rest) rfl (by exact f3) (by exact fA) (by omega) (by omega) (by simp) (by simp [cells]) ?_
    have hz : poke ((List.replicate (sb.length + 1) Val.undef).set (0 + (sb.length : Int)).toNat (.int 0)) (0 : Int).toNat
        (((cells sb ++ rest).drop (0 : Int).toNat).take (sb.length : Int).toNat) = cells (sb ++ [0]) := by
      have : (0 + (sb.length : Int)).toNat = sb.length := by omega
      rw [this]
      have e : ((cells sb ++ rest).drop (0 : Int).toNat).take (sb.length : Int).toNat = cells sb := by
        simp only [Int.toNat_zero, List.drop_zero, Int.toNat_natCast]
        rw [← cells_length sb, List.take_left]
      rw [e]
      simp only [poke, Int.toNat_zero, List.take_zero, List.nil_append, Nat.zero_add, cells_length, cells_append]
      congr 1
      rw [List.drop_set]
      simp [cells]
    rw [hz, hM3, upd_upd, hM2, hM1]
    xs []
    rw [upd_comm _ _ _ h2t.symm.symm, upd_comm _ _ _ h1t.symm.symm, upd_upd]
    simp only [encMem, bufMem, e1, e2, wr_some hm1, poke_one _ ho1, newBlk, ptrVal, List.map_cons, List.map_nil, Option.toList,
      Nat.zero_sub, List.replicate_zero, List.append_nil] at hq
    rw [wr_some (l := l2) (by rw [upd_ne _ _ h2t, upd_ne _ _ h12.symm]; exact hm2), poke_one _ ho2] at hq
    have hdrop : dropStack st.stk (upd (upd (upd st.mem b1 (some (l1.set o1 (.ptr (some (.heap st.heap.tick, 0)))))) (.heap st.heap.tick)
        (some (cells (sb ++ [0])))) b2 (some (l2.set o2 (.int sb.length)))) =
        upd (upd (upd st.mem b1 (some (l1.set o1 (.ptr (some (.heap st.heap.tick, 0)))))) (.heap st.heap.tick)
        (some (cells (sb ++ [0])))) b2 (some (l2.set o2 (.int sb.length))) := by
      apply dropStack_none
      intro j hj
      have hj0 := hw.stack j hj
      rw [upd_ne _ _ (by rintro rfl; rw [hj0] at hm2; cases hm2), upd_ne _ _ (by simp), upd_ne _ _ (by rintro rfl; rw [hj0] at hm1; cases hm1)]
      exact hj0
    rw [upd_comm _ _ _ h1t.symm, hdrop]
    exact hq

end L8w8jwt.C
