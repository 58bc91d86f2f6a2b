import Verif.C.EncodeProof
import Verif.Props.EncodeAnswer
import Verif.Props.Client
import Verif.Props.EndToEnd
import Verif.Props.Size
import Verif.Props.TextDecode
/-!
# C79, C80: what the text of src/encode.c does to memory

As in Props/TextDecode.lean, the statements are about executions of the text. What is written is described by the specification that
`C65_encode` uses. The calls of mbedTLS and of the Ed25519 library in `write_signature` are executed with the meaning given to them in
C/Mbed.lean, in terms of the contract of Model/Crypto.lean.
-/

namespace L8w8jwt.C

open Spec

/-- The conditions under which the text of `l8w8jwt_encode` is executed: the structure at `P` holds the parameters `p` (with the
addresses `w`); `out` and `out_length` point to objects of one cell, which are different from each other and from the structure; strings
and claims are small enough for their lengths to be computed, and loops may take enough steps. (The text is that of a build with
or without EdDSA and with or without `L8W8JWT_SMALL_STACK`, as `env` says; see DESIGN.md.) -/
structure EncCall (env : Env) (fuel : Nat) (st : St) (P : Blk) (p : EncParams) (w : EncPtrs) (O1 O2 : Blk) : Prop where
  wf : Wf st
  params : EncAt st.mem P p w
  fits : Fits fuel p
  out : w.out = .ptr (some (O1, 0))
  outLength : w.outLength = .ptr (some (O2, 0))
  outCell : ∃ x, st.mem O1 = some [x]
  outLengthCell : ∃ x, st.mem O2 = some [x]
  apart : O1 ≠ P ∧ O2 ≠ P ∧ O1 ≠ O2

variable {env : Env} {fuel d : Nat} {s : Sched} {st : St} {P : Blk} {p : EncParams} {w : EncPtrs} {O1 O2 : Blk}

/-- The text of `l8w8jwt_encode` does what `encode` says, in any run of `encode` that is defined. -/
theorem encode_text_call (c : EncCall env fuel st P p w O1 O2) {o : EncOut} {h' : Heap} (he : encode env (some p) s st.heap = .ok (o, h')) :
    ∃ mem', runFun (cx env fuel (d + 3)) Src.l8w8jwt_encode [.ptr (some (P, 0))] s st = .ok (.int o.rc, { st with heap := h', mem := mem' }) ∧
      (∀ x, x ≠ O1 → x ≠ O2 → (∀ b, o.out = some (some b) → x ≠ .heap b.id) → mem' x = st.mem x) ∧
      mem' O1 = (match o.out with | none => st.mem O1 | some q => some [ptrVal q]) ∧
      mem' O2 = (match o.outLength with | none => st.mem O2 | some n => some [.int n]) ∧
      ∀ b, o.out = some (some b) → st.heap.tick ≤ b.id ∧ mem' (.heap b.id) = some (cells b.mem) := by
  obtain ⟨x1, hx1⟩ := c.outCell
  obtain ⟨x2, hx2⟩ := c.outLengthCell
  obtain ⟨hp1, hp2, h12⟩ := c.apart
  have n1 : nul w.out = .ptr (some (O1, 0)) := by rw [c.out]; rfl
  have n2 : nul w.outLength = .ptr (some (O2, 0)) := by rw [c.outLength]; rfl
  have e := encode_text env fuel d s st c.wf P p w c.params c.fits
    (by rw [n1]; intro b hb h; simp at hb; subst hb; exact hp1 (Option.some.inj h))
    (by rw [n2]; intro b hb h; simp at hb; subst hb; exact hp2 (Option.some.inj h))
    (by rw [n1, n2]; exact Or.inr (Or.inr fun h => h12 (Option.some.inj h))) o h' he
  have hid : ∀ b, o.out = some (some b) → st.heap.tick ≤ b.id := by
    intro b hb
    by_cases hv : validateEncodingParams (some p) = L8W8JWT_SUCCESS
    · have hp := wp_iff_forall.mp (wp_encode_any (s := s) (h := st.heap) env p hv) o h' he
      by_cases hr : o.rc = L8W8JWT_SUCCESS
      · obtain ⟨-, _, _, _, _, id, _, -, -, -, -, -, -, e1, -, -, l, -⟩ := hp.success hr
        rw [hb] at e1
        cases e1
        exact l
      · rcases (hp.failure hr).2.1 with h | h <;> rw [hb] at h <;> cases h
    · rw [C16_encode_invalid _ hv] at he
      cases he
      cases hb
  have hne : ∀ b x, o.out = some (some b) → st.mem x ≠ none → x ≠ .heap b.id := by
    rintro b x hb hx rfl
    exact hx (c.wf.heap _ (hid b hb))
  refine ⟨_, e, fun x hx1 hx2 hn => ?_, ?_, ?_, fun b hb => ⟨hid b hb, ?_⟩⟩
  · refine encMem_other ?_ ?_ hn
    · rw [n1]; intro h; exact hx1 (Option.some.inj h).symm
    · rw [n2]; intro h; exact hx2 (Option.some.inj h).symm
  · simp only [encMem, bufMem, n1, n2, wr]
    rw [upd_ne _ _ h12]
    cases ho : o.out with
    | none => rfl
    | some q =>
      have hw : upd st.mem O1 ((st.mem O1).map fun l => poke l (0 : Int).toNat [ptrVal q]) O1 = some [ptrVal q] := by
        rw [upd_same, hx1]; rfl
      cases q with
      | none => exact hw
      | some b =>
        simp only [newBlk]
        rw [upd_ne _ _ (hne b O1 ho (by simp [hx1]))]
        exact hw
  · have hm : (match o.out with
        | none => st.mem
        | some q => newBlk (wr st.mem (nul w.out) [ptrVal q]) q 0) O2 = some [x2] := by
      cases ho : o.out with
      | none => exact hx2
      | some q =>
        have hw : wr st.mem (nul w.out) [ptrVal q] O2 = some [x2] := by
          rw [n1]; simp only [wr]; rw [upd_ne _ _ (Ne.symm h12), hx2]
        cases q with
        | none => exact hw
        | some b =>
          simp only [newBlk]
          rw [upd_ne _ _ (hne b O2 ho (by simp [hx2]))]
          exact hw
    unfold encMem bufMem
    rw [n2]
    show upd _ O2 (Option.map _ _) O2 = _
    rw [upd_same]
    refine (congrArg (Option.map _) hm).trans ?_
    cases o.outLength with
    | none => rw [hx2]; rfl
    | some n => rfl
  · simp only [encMem, bufMem, hb, n1, n2, wr, newBlk]
    rw [upd_ne _ _ (hne b O2 hb (by simp [hx2])).symm, upd_same]
    simp

/-! ## `l8w8jwt_encode` -/

/-- What is in memory after encoding: if there is a token, `O1` holds the address of a new block, which contains the token and a NUL
and nothing else and is the only block more, and `O2` holds the number of its characters; otherwise `O2` is as before, `O1` is as
before or NULL, and the live blocks are as before. No other object is different. -/
def _root_.L8w8jwt.Spec.TokenAt (st st' : St) (O1 O2 : Blk) (t : Option Bytes) : Prop :=
  st'.fr = st.fr ∧ st'.stk = st.stk ∧
  match t with
  | some tok => ∃ i, st.heap.tick ≤ i ∧ st'.mem O1 = some [.ptr (some (.heap i, 0))] ∧ st'.mem O2 = some [.int tok.length] ∧
      st'.mem (.heap i) = some (cells (tok ++ [0])) ∧ st'.heap.live = i :: st.heap.live ∧
      ∀ x, x ≠ O1 → x ≠ O2 → x ≠ .heap i → st'.mem x = st.mem x
  | none => (st'.mem O1 = st.mem O1 ∨ st'.mem O1 = some [.ptr none]) ∧ st'.heap.live = st.heap.live ∧ ∀ x, x ≠ O1 → st'.mem x = st.mem x

theorem tokenAt_some {h' : Heap} {mem' : Blk → Option (List Val)} {o : EncOut} {tok : Bytes} {id : Nat}
    (f : ∀ x, x ≠ O1 → x ≠ O2 → (∀ b, o.out = some (some b) → x ≠ .heap b.id) → mem' x = st.mem x)
    (g1 : mem' O1 = (match o.out with | none => st.mem O1 | some q => some [ptrVal q]))
    (g2 : mem' O2 = (match o.outLength with | none => st.mem O2 | some n => some [.int n]))
    (g3 : ∀ b, o.out = some (some b) → st.heap.tick ≤ b.id ∧ mem' (.heap b.id) = some (cells b.mem))
    (h1 : o.out = some (some ⟨id, tok ++ [0]⟩)) (h2 : o.outLength = some tok.length) (h3 : h'.live = id :: st.heap.live) :
    TokenAt st { st with heap := h', mem := mem' } O1 O2 (some tok) := by
  rw [h1] at g1
  rw [h2] at g2
  refine ⟨rfl, rfl, id, (g3 _ h1).1, g1, g2, (g3 _ h1).2, h3, fun x x1 x2 x3 => f x x1 x2 fun b hb => ?_⟩
  rw [h1] at hb
  cases hb
  exact x3

theorem tokenAt_none {h' : Heap} {mem' : Blk → Option (List Val)} {o : EncOut}
    (f : ∀ x, x ≠ O1 → x ≠ O2 → (∀ b, o.out = some (some b) → x ≠ .heap b.id) → mem' x = st.mem x)
    (g1 : mem' O1 = (match o.out with | none => st.mem O1 | some q => some [ptrVal q]))
    (g2 : mem' O2 = (match o.outLength with | none => st.mem O2 | some n => some [.int n]))
    (h1 : o.out = none ∨ o.out = some none) (h2 : o.outLength = none) (h3 : h'.live = st.heap.live) :
    TokenAt st { st with heap := h', mem := mem' } O1 O2 none := by
  rw [h2] at g2
  refine ⟨rfl, rfl, ?_, h3, fun x x1 => ?_⟩
  · rcases h1 with h1 | h1 <;> rw [h1] at g1
    · exact Or.inl g1
    · exact Or.inr g1
  · by_cases x2 : x = O2
    · subst x2; exact g2
    · exact f x x1 x2 fun b hb => by rcases h1 with h1 | h1 <;> rw [hb] at h1 <;> cases h1

/-- **C79** The text of `l8w8jwt_encode` where encoding is defined (`EncDefined`) and no allocation fails: it ends without undefined
behaviour; it returns the code of the specification; the token of the specification is handed out if there is one, and nothing
otherwise; and no other object is changed. -/
theorem C79_encode_text (c : EncCall env fuel st P p w O1 O2) (hc : CryptoOk env.crypto) (hr : TextsReadable p) (hk : KeyReadable p)
    (hv : validateEncodingParams (some p) = L8W8JWT_SUCCESS) (gd : s.good) (hd : EncDefined env p) :
    ∃ rc t st', EncAnswer env p rc t ∧ runFun (cx env fuel (d + 3)) Src.l8w8jwt_encode [.ptr (some (P, 0))] s st = .ok (.int rc, st') ∧
      TokenAt st st' O1 O2 t := by
  obtain ⟨r, h', rc, t, he, ha, rfl, hg⟩ := C65_encode (s := s) (h := st.heap) hc hr hk hv gd hd
  obtain ⟨mem', e, f, g1, g2, g3⟩ := encode_text_call (d := d) c he
  refine ⟨r.rc, t, _, ha, e, ?_⟩
  cases t with
  | none => exact tokenAt_none f g1 g2 hg.1 hg.2.1 hg.2.2
  | some tok =>
    obtain ⟨id, h1, h2, h3⟩ := hg
    exact tokenAt_some f g1 g2 g3 h1 h2 h3

/-- **C79** The same whatever allocations fail (with `L8W8JWT_SMALL_STACK`: if none fails, see C90): the text ends without undefined behaviour; if the code is not that of success, nothing is
handed out and nothing is lost; if it is, a text with its NUL is handed out whose length is bounded by the request. -/
theorem C79_encode_lowmem_text (c : EncCall env fuel st P p w O1 O2) (hc : CryptoOk env.crypto) (hr : TextsReadable p) (hk : KeyReadable p)
    (hss : env.smallStack = false ∨ s.noAllocFail) (hd : EncDefined env p) :
    ∃ (rc : Nat) (t : Option Bytes) (st' : St), runFun (cx env fuel (d + 3)) Src.l8w8jwt_encode [.ptr (some (P, 0))] s st = .ok (.int rc, st') ∧
      TokenAt st st' O1 O2 t ∧ (rc = L8W8JWT_SUCCESS ↔ t ≠ none) ∧ ∀ tok, t = some tok → tok.length ≤ 8 * requestSize p + 5711 := by
  obtain ⟨r, h', he⟩ := C64_encode_defined_oom (s := s) (h := st.heap) hc hr hk hss hd
  obtain ⟨mem', e, f, g1, g2, g3⟩ := encode_text_call (d := d) c he
  by_cases hv : validateEncodingParams (some p) = L8W8JWT_SUCCESS
  · have hp := wp_iff_forall.mp (wp_encode_any (s := s) (h := st.heap) env p hv) r h' he
    by_cases hrc : r.rc = L8W8JWT_SUCCESS
    · obtain ⟨ha, _, _, _, tok, id, _, -, -, -, -, -, -, e1, e2, l, -⟩ := hp.success hrc
      obtain ⟨⟨name, sch⟩, ha⟩ := Option.isSome_iff_exists.mp ha
      have hok := textsOk_iff.mpr ⟨hr, (hd name sch ha).1⟩
      obtain ⟨n, hn1, hn2⟩ := C71_encode hc hok he hrc
      refine ⟨r.rc, some tok, _, e, tokenAt_some f g1 g2 g3 e1 e2 l, by simp [hrc], ?_⟩
      rintro _ ⟨⟩
      rw [e2] at hn1
      cases hn1
      exact hn2
    · obtain ⟨e1, e2, e3, -⟩ := hp.failure hrc
      exact ⟨r.rc, none, _, e, tokenAt_none f g1 g2 e2 e1 e3, by simp [hrc], by simp⟩
  · rw [C16_encode_invalid _ hv] at he
    cases he
    exact ⟨_, none, _, e, tokenAt_none f g1 g2 (Or.inl rfl) rfl rfl, by simp [hv], by simp⟩

/-- **C79** If the text of `l8w8jwt_encode` reports success, what it stored at `out` can be given to the text of `l8w8jwt_free`, which then
ends without undefined behaviour; afterwards the live blocks and all objects are as before encoding, except for the two written to. -/
theorem C79_encode_free_text (c : EncCall env fuel st P p w O1 O2) (hc : CryptoOk env.crypto) (hr : TextsReadable p) (hk : KeyReadable p)
    (hss : env.smallStack = false ∨ s.noAllocFail) (hd : EncDefined env p) {st' : St} (he : runFun (cx env fuel (d + 3)) Src.l8w8jwt_encode [.ptr (some (P, 0))] s st = .ok (.int L8W8JWT_SUCCESS, st')) :
    ∃ v st2, st'.mem O1 = some [v] ∧ runFun (cx env fuel d) Src.l8w8jwt_free [v] s st' = .ok (.undef, st2) ∧ st2.heap.live = st.heap.live ∧
      st2.fr = st.fr ∧ st2.stk = st.stk ∧ ∀ x, x ≠ O1 → x ≠ O2 → st2.mem x = st.mem x := by
  obtain ⟨rc, t, st1, e, ⟨o1, o2, ht⟩, hi, -⟩ := C79_encode_lowmem_text (d := d) (s := s) c hc hr hk hss hd
  rw [he] at e
  cases e
  cases t with
  | none => exact absurd rfl (hi.mp rfl)
  | some tok =>
    obtain ⟨i, h1, h2, h3, h4, h5, h6⟩ := ht
    have hf : L8w8jwt.free (some ⟨i, []⟩) s st'.heap = .ok ((), { st'.heap with live := st.heap.live }) := by
      simp only [L8w8jwt.free, h5]
      simp
    have hw := wp_l8freeP env fuel d (P := some ⟨i, []⟩) (st := st') (s := s) (Q := fun v st2 => v = .undef ∧ st2 = _) hf ?_ ⟨rfl, rfl⟩
    · rw [cx_fun _ _ _ (fn := Src.l8w8jwt_free) rfl] at hw
      obtain ⟨v, st2, e2, rfl, rfl⟩ := hw
      refine ⟨_, _, h2, e2, rfl, o1, o2, fun x x1 x2 => ?_⟩
      show upd st'.mem (.heap i) none x = _
      by_cases hx : x = .heap i
      · subst hx
        rw [upd_same, c.wf.heap _ h1]
      · rw [upd_ne _ _ hx]
        exact h6 x x1 x2 hx
    · intro j hj
      rw [o2] at hj
      obtain ⟨y1, g1⟩ := c.outCell
      obtain ⟨y2, g2⟩ := c.outLengthCell
      rw [h6 (.stack j) ?_ ?_ (by simp)]
      · exact c.wf.stack j hj
      · rintro rfl
        rw [c.wf.stack j hj] at g1; cases g1
      · rintro rfl
        rw [c.wf.stack j hj] at g2; cases g2

/-- **C79** Parameters that are refused (C16 says which; also NULL): the text of `l8w8jwt_encode` returns the code of the refusal and changes
nothing, whatever the parameters contain. -/
theorem C79_refused_text (hw : Wf st) (hE : EncAt st.mem P p w) (hF : Fits fuel p)
    (ha1 : Apart (nul w.out) [P]) (ha2 : Apart (nul w.outLength) [P]) (hsep : Sep (nul w.out) (nul w.outLength))
    (hv : validateEncodingParams (some p) ≠ L8W8JWT_SUCCESS) :
    runFun (cx env fuel (d + 3)) Src.l8w8jwt_encode [.ptr (some (P, 0))] s st = .ok (.int (validateEncodingParams (some p)), st) ∧
    runFun (cx env fuel (d + 3)) Src.l8w8jwt_encode [.ptr none] s st = .ok (.int L8W8JWT_NULL_ARG, st) := by
  refine ⟨?_, encode_text_null env fuel d s st hw _ _ (C16_encode_invalid none (by decide))⟩
  have := encode_text env fuel d s st hw P p w hE hF ha1 ha2 hsep _ _ (C16_encode_invalid _ hv)
  rw [encMem_nil] at this
  exact this

/-- **C80** The text of `l8w8jwt_encoding_params_init`: afterwards all 22 members are 0, except that the algorithm is −2, and nothing else has
changed. NULL is ignored. -/
theorem C80_params_init_text (hw : Wf st) :
    runFun (cx env fuel d) Src.l8w8jwt_encoding_params_init [.ptr none] s st = .ok (.undef, st) ∧
    ∀ (P : Blk) (l : List Val), P.own = true → st.mem P = some l → l.length = 22 →
      runFun (cx env fuel d) Src.l8w8jwt_encoding_params_init [.ptr (some (P, 0))] s st =
        .ok (.undef, { st with mem := upd st.mem P (some ((List.replicate 22 (.int 0)).set 0 (.int (-2)))) }) :=
  ⟨encoding_params_init_null env fuel d s st hw, fun P l hP h hl => encoding_params_init_text env fuel d s st hw P l hP h hl⟩

/-! ## Both directions -/

/-- **C81** A token made by the text of `l8w8jwt_encode` is read by the text of `l8w8jwt_decode`, called later in any memory in which its
parameters hold the token, the algorithm and a matching key (under the conditions of C41): without undefined behaviour, with the code
of success; what is stored are the claims that were given, in order, with their keys, values and types, and the flags of claim
validation (the signature is accepted). -/
theorem C81_round_trip_text (c : EncCall env fuel st P p w O1 O2) (hc : CryptoOk env.crypto) (hi : IntsOk env.checknum) (hr : TextsReadable p)
    (hk : KeyReadable p) (hd : EncDefined env p) (g : s.good) (hn : ¬ OddPss env p) (hf : Faithful env.checknum p) {st1 : St}
    (he : runFun (cx env fuel (d + 3)) Src.l8w8jwt_encode [.ptr (some (P, 0))] s st = .ok (.int L8W8JWT_SUCCESS, st1)) :
    ∃ name sch tok, alg? p.alg = some (name, sch) ∧ TokenAt st st1 O1 O2 (some tok) ∧
      ∀ (now : Int) (fuel2 d2 : Nat) (s2 : Sched) (st2 : St) (P2 : Blk) (q : DecParams) (D1 D2 D3 : Blk), NowOk now → Decodes env p q → TokenMem q tok →
        s2.good → DecCall { env with now := now } fuel2 st2 P2 q [some D1, some D2, some D3] →
        ∃ v st3, runFun (cx { env with now := now } fuel2 (d2 + 3)) Src.l8w8jwt_decode
              [.ptr (some (P2, 0)), .ptr (some (D1, 0)), .ptr (some (D2, 0)), .ptr (some (D3, 0))] s2 st2 = .ok (.int L8W8JWT_SUCCESS, st3) ∧
          OnlyWrites st2 st3 [D1, D2, D3] ∧
          st3.mem D1 = some [.int (claimFlags (fun x => claimStarting x (encodedClaims p name)) now q).toNat] ∧
          st3.mem D2 = some [v] ∧ ShowsClaims st3.mem v (encodedClaims p name) ∧ st3.mem D3 = some [.int (encodedClaims p name).length] := by
  obtain ⟨r, h', e⟩ := C64_encode_defined_oom (s := s) (h := st.heap) hc hr hk (Or.inr g.1) hd
  obtain ⟨mem', e1, f, g1, g2, g3⟩ := encode_text_call (d := d) c e
  rw [he] at e1
  simp only [Except.ok.injEq, Prod.mk.injEq, Val.int.injEq] at e1
  obtain ⟨hrc, rfl⟩ := e1
  have hrc : r.rc = L8W8JWT_SUCCESS := by exact_mod_cast hrc.symm
  obtain ⟨name, sch, ha⟩ : ∃ name sch, alg? p.alg = some (name, sch) := by
    cases hx : alg? p.alg with
    | some x => exact ⟨_, _, rfl⟩
    | none => 
      obtain ⟨-, h13⟩ := C19_known_alg e hrc
      exact absurd (alg?_none hx) (by have := (C19_known_alg e hrc).1; omega)
  have hok := textsOk_iff.mpr ⟨hr, (hd name sch ha).1⟩
  obtain ⟨name', sch', id, tok, ha', ho, hrt⟩ := C41_round_trip_partial hc hi hok g hn hf e hrc
  have hv : validateEncodingParams (some p) = L8W8JWT_SUCCESS := by
    refine Classical.byContradiction fun hv => ?_
    rw [C16_encode_invalid _ hv] at e
    cases e
    exact hv hrc
  obtain ⟨-, _, _, _, tok', id', _, -, -, -, -, -, -, o1, o2, l, -⟩ := (wp_iff_forall.mp (wp_encode_any (s := s) (h := st.heap) env p hv) r h' e).success hrc
  rw [ho] at o1
  simp only [Option.some.injEq, Block.mk.injEq, List.append_cancel_right_eq] at o1
  obtain ⟨rfl, rfl⟩ := o1
  refine ⟨name', sch', tok, ha', tokenAt_some f g1 g2 g3 ho o2 l, fun now fuel2 d2 s2 st2 P2 q D1 D2 D3 hnow hdec ht gs dc => ?_⟩
  obtain ⟨r', k', arr, x1, x2, x3, x4, x5, x6⟩ := hrt now q s2 st2.heap hnow hdec ht gs
  obtain ⟨m3, y, D⟩ := decode_text (d := d2) dc x1
  have y1 := D.validation D1 rfl
  have y2 := D.claims D2 rfl
  have y3 := D.length D3 rfl
  rw [x6] at y1
  rw [x3] at y2
  rw [x4] at y3
  rw [x2] at y
  exact ⟨_, _, y, Kept.only (os := [D1, D2, D3]) D.kept, y1, y2, showsClaims (D.array arr x3).1 x5, y3⟩

/-! ## Examples -/

/-- What the caller of the examples asks for. -/
def exParams (alg : Int) (key : Bytes) : EncParams :=
  { encodingParamsInit with alg := alg, sub := some ⟨0, str "a"⟩, subLength := 1, secretKey := some key, secretKeyLength := key.length
                            outNull := false, outLengthNull := false }

def exPtrs : EncPtrs := { zeroEnc with key := exPtr 0 0, sub := exPtr 4 0, out := exPtr 2 0, outLength := exPtr 3 0 }

/-- A key, parameters as `l8w8jwt_encoding_params_init` leaves them with algorithm, subject, key and out arguments filled in, the two
out arguments and the subject. -/
def exEnc (alg : Int) (key : Bytes) : St where
  fr := []
  heap := heap0
  mem := fun b => match b with
    | .stack 0 => some (cells key)
    | .stack 1 => some (encCells (exParams alg key) exPtrs)
    | .stack 2 | .stack 3 => some [.undef]
    | .stack 4 => some (cells (str "a"))
    | _ => none
  stk := 5

/-- The header of the token. -/
def exHdr : String := "{\"alg\":\"HS256\",\"typ\":\"JWT\"}"

/-- Return value, the out arguments and the live blocks. -/
def exToken (r : Except Err (Val × St)) : Option (Val × List (Option (List Val)) × List (Option (List Val))) :=
  match r with
  | .error _ => none
  | .ok (v, st) => some (v, [st.mem (.stack 2), st.mem (.stack 3)], st.heap.live.map fun i => st.mem (.heap i))

/-- The token has 96 characters; its block has one more. -/
example : exToken (runFun (cx toy 400 3) Src.l8w8jwt_encode [exPtr 1 0] calm (exEnc 0 (str "secret"))) =
    some (.int 0, [some [.ptr (some (.heap 25, 0))], some [.int 96]],
      [some (cells (mkTok exHdr pay1 (toyMac exHdr pay1) ++ [0]))]) := by
  decide +kernel

/-- An algorithm that is not known, as in freshly initialised parameters; a key that is no PEM text. -/
example : exToken (runFun (cx toy 400 3) Src.l8w8jwt_encode [exPtr 1 0] calm (exEnc (-2) (str "secret"))) =
      some (.int L8W8JWT_INVALID_ARG, [some [.undef], some [.undef]], []) ∧
    exToken (runFun (cx toy 400 3) Src.l8w8jwt_encode [exPtr 1 0] calm (exEnc 3 (str "secret"))) =
      some (.int L8W8JWT_KEY_PARSE_FAILURE, [some [.undef], some [.undef]], []) := by
  constructor <;> decide +kernel

/-- A key for ES256: 64 octets of signature. -/
example : exToken (runFun (cx toy 400 3) Src.l8w8jwt_encode [exPtr 1 0] calm (exEnc 9 (str "P"))) =
    (tokenOf toy (exParams 9 (str "P"))).map fun t => (.int 0, [some [.ptr (some (.heap 25, 0))], some [.int (t.length - 1)]], [some (cells t)]) := by
  decide +kernel

/-- C48: with 8192 octets that do not end with NUL, the parser is told to read 8193 octets of a buffer of 8192; with 8191 it is not. -/
example : exToken (runFun (cx toy 400 3) Src.l8w8jwt_encode [exPtr 1 0] calm (exEnc 3 (List.replicate 8192 65))) = none ∧
    (exToken (runFun (cx toy 400 3) Src.l8w8jwt_encode [exPtr 1 0] calm (exEnc 3 (List.replicate 8191 65)))).map (·.1) =
      some (.int L8W8JWT_KEY_PARSE_FAILURE) := by
  constructor <;> decide +kernel

/-- The theorems apply to these calls. -/
example : EncCall toy 20000 (exEnc 0 (str "secret")) (.stack 1) (exParams 0 (str "secret")) exPtrs (.stack 2) (.stack 3) where
  wf := ⟨fun j hj => by
    have hj : 5 ≤ j := hj
    simp only [exEnc]
    split <;> rename_i h <;> first | rfl | (injection h with h; omega), fun _ _ => rfl⟩
  params := by
    refine ⟨rfl, rfl, rfl, ⟨.stack 4, 0, _, rfl, rfl, by decide +kernel, by decide +kernel⟩, rfl, rfl, rfl, rfl,
      ⟨.stack 0, 0, _, rfl, rfl, by decide +kernel, by decide +kernel⟩, rfl, ⟨0, .stack 2, 0, _, rfl, rfl, rfl, rfl⟩,
      ⟨0, .stack 3, 0, _, rfl, rfl, rfl, rfl⟩, ?_, ?_, ?_, ?_, ?_, ?_, ?_, ?_, ?_, ?_, ?_, ?_⟩
    all_goals decide +kernel
  fits := by constructor <;> decide +kernel
  out := rfl
  outLength := rfl
  outCell := ⟨_, rfl⟩
  outLengthCell := ⟨_, rfl⟩
  apart := by simp

end L8w8jwt.C
