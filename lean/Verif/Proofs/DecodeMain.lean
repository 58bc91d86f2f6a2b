import Verif.Proofs.DecodeVer
import Verif.Proofs.Validate
import Verif.Spec.Outcome
/-!
# The decode functions
-/

namespace L8w8jwt
open Spec

variable {s : Sched} {h h' : Heap} {env : Env} {p : DecParams}

/-! ## Signature verification -/

/-- How the outcome of the checks is reported. -/
def sigResult (v : VRes) (r : VerRes) : Nat × VRes :=
  match r with
  | .error rc => (rc, v)
  | .ok true => (L8W8JWT_SUCCESS, v)
  | .ok false => (L8W8JWT_SUCCESS, v ||| L8W8JWT_SIGNATURE_VERIFICATION_FAILURE)

theorem wp_verifySignature (v : VRes) (id : Nat) (sig : Bytes) (n : Nat) (ha : p.alg ≠ -1) (hn : n ≠ 0) (E : UB → Prop)
    (Q : VerRes → Prop) (hst : (env.smallStack = false ∨ ∀ k, s.failAlloc k = false) ∨ E .nullDeref)
    (hb : rwp (verifyBody env p sig n) Q E) :
    wp (verifySignature env p v (some ⟨id, sig⟩) n) s h (fun r h' => Keeps h h' ∧ ∃ vr, Q vr ∧ r = sigResult v vr) E := by
  unfold verifySignature
  rw [if_neg (by simp [ha, hn])]
  simp only [wp_bind, wp_lift, Ptr.bytes, Option.map_some, deref, rwp_ok]
  cases hs : env.smallStack with
  | false =>
    simp only [Bool.false_eq_true, if_false, wp_bind, wp_lift]
    refine rwp_mono hb (fun vr hq => ?_) (fun _ h => h)
    refine ⟨Keeps.refl h, vr, hq, ?_⟩
    unfold sigResult
    rfl
  | true =>
    simp only [if_true, wp_bind, wp_alloc]
    refine ⟨fun hf => ?_, fun hf => ?_⟩
    · simp only [Option.isNone_none, if_true, wp_pure, wp_lift, zeroize]
      rw [if_neg (by decide)]
      rcases hst with (hst | hst) | hst
      · rw [hs] at hst; cases hst
      · rw [hst] at hf; cases hf
      · exact hst
    · simp only [Option.isNone_some, Bool.false_eq_true, if_false, wp_lift]
      refine rwp_mono hb (fun vr hq => ?_) (fun _ h => h)
      simp only [zeroize, List.length_replicate, Nat.le_refl, if_true]
      rw [if_neg (by decide), rwp_ok]
      refine wp_free_some _ _ _ (by simp) ?_
      refine ⟨⟨by simp, by simp only; omega⟩, vr, hq, ?_⟩
      unfold sigResult
      rfl

theorem verifySignature_none (v : VRes) (sig : Ptr) (n : Nat) (h : p.alg = -1) : verifySignature env p v sig n = pure (L8W8JWT_SUCCESS, v) := by
  unfold verifySignature
  rw [if_pos (Or.inl h)]

/-! ## The body -/

/-- The claims in a base64url text: return code and data. -/
def claimsIn (env : Env) (text : Bytes) : Res (Nat × List DClaim) :=
  parsePure env (segBuf text) ((b64Decode true text).getD []).length

/-- The outcome of the signature step. -/
def Sig (env : Env) (p : DecParams) (tok : Bytes) (r : VerRes) : Prop :=
  (p.alg = -1 ∧ r = .ok true) ∨
  (p.alg ≠ -1 ∧ ∃ a b c d, ThreeParts tok a b c ∧ (b64Decode true c = some d ∧ VerDefined env p (a ++ 46 :: b) c) ∧
    VerPost env p (a ++ 46 :: b) c r)

/-- The segments and the code of splitting the token. -/
structure SegInfo (s : Sched) (alg : Int) (tok : Bytes) (r : Segs) : Prop where
  code : SegCode alg tok r.rc ∨ (r.rc = L8W8JWT_OUT_OF_MEM ∧ ¬ s.noAllocFail)
  parts : (46 ∉ tok ∧ r = { rc := r.rc }) ∨
    (∃ a b, TwoParts tok a b ∧ Seg? r.header r.headerLength a ∧ Seg? r.payload r.payloadLength b ∧ r.signature = none ∧
      r.signatureLength = 0 ∧ (r.rc = L8W8JWT_SUCCESS → alg = -1 ∧ Seg r.header r.headerLength a ∧ Seg r.payload r.payloadLength b)) ∨
    (∃ a b c, ThreeParts tok a b c ∧ Seg? r.header r.headerLength a ∧ Seg? r.payload r.payloadLength b ∧
      Seg? r.signature r.signatureLength c ∧
      (r.rc = L8W8JWT_SUCCESS → Seg r.header r.headerLength a ∧ Seg r.payload r.payloadLength b ∧
        Seg r.signature r.signatureLength c))
  handed : SegsHanded s alg tok r

/-- Growing the claims buffer does not fail, or is not necessary because its initial capacity suffices. -/
def RoomFor (env : Env) (s : Sched) (tok : Bytes) : Prop :=
  s.noGrowFail ∨ ∀ a b, Parts tok a b → ∃ x y, claimsIn env a = .ok x ∧ claimsIn env b = .ok y ∧ x.2.length + y.2.length ≤ 16

/-- All ways in which the body can end. -/
inductive Outcome (env : Env) (s : Sched) (p : DecParams) (tok : Bytes) : DecState → Prop where
  | oom : (¬ ∀ k, s.failAlloc k = false) → Outcome env s p tok ⟨L8W8JWT_OUT_OF_MEM, { rc := 0 }, ⟨none, []⟩, ~~~L8W8JWT_VALID⟩
  | segs {sg blk} : SegInfo s p.alg tok sg → sg.rc ≠ L8W8JWT_SUCCESS → Outcome env s p tok ⟨sg.rc, sg, ⟨some blk, []⟩, ~~~L8W8JWT_VALID⟩
  | verify {sg blk rc} : SegInfo s p.alg tok sg → sg.rc = L8W8JWT_SUCCESS → Sig env p tok (.error rc) →
      Outcome env s p tok ⟨rc, sg, ⟨some blk, []⟩, ~~~L8W8JWT_VALID⟩
  | claims {sg blk cs a b vr} : SegInfo s p.alg tok sg → sg.rc = L8W8JWT_SUCCESS → Sig env p tok (.ok vr) → Parts tok a b →
      (s.noAllocFail → (∃ rc ds, claimsIn env a = .ok (rc, ds) ∧ rc ≠ L8W8JWT_SUCCESS) ∨
        (∃ ds1 rc ds, claimsIn env a = .ok (L8W8JWT_SUCCESS, ds1) ∧ claimsIn env b = .ok (rc, ds) ∧ rc ≠ L8W8JWT_SUCCESS)) →
      Outcome env s p tok ⟨L8W8JWT_DECODE_FAILED_INVALID_TOKEN_FORMAT, sg, ⟨some blk, cs⟩, ~~~L8W8JWT_VALID⟩
  | done {sg blk cs a b vr v ds1 ds2} : SegInfo s p.alg tok sg → sg.rc = L8W8JWT_SUCCESS → Sig env p tok (.ok vr) → Parts tok a b →
      Views cs (ds1 ++ ds2) →
      (RoomFor env s tok → claimsIn env a = .ok (L8W8JWT_SUCCESS, ds1) ∧ claimsIn env b = .ok (L8W8JWT_SUCCESS, ds2)) →
      validateClaims env p cs (if vr then 0 else L8W8JWT_SIGNATURE_VERIFICATION_FAILURE) = .ok v →
      (∃ fs1 fs2, claimsIn env a = .ok (L8W8JWT_SUCCESS, fs1) ∧ claimsIn env b = .ok (L8W8JWT_SUCCESS, fs2) ∧ ds1.Sublist fs1 ∧
        ds2.Sublist fs2) →
      Outcome env s p tok ⟨L8W8JWT_SUCCESS, sg, ⟨some blk, cs⟩, v⟩

/-- The blocks owned when the body ends. -/
def stateIds (st : DecState) : List Nat :=
  st.segs.header.ids ++ (st.segs.payload.ids ++ (st.segs.signature.ids ++ (claimIds st.claims.items ++ st.claims.blk.ids)))

/-- A JSON text of the token makes the parser leak its token array. -/
def TokLeak (tok : Bytes) : Prop := ∃ a b, Parts tok a b ∧ (LeaksTokens (jsonOf a) ∨ LeaksTokens (jsonOf b))

/-- The end of a run that leaks its token array. -/
def LeakEnd (env : Env) (tok : Bytes) (rc : Nat) : Prop :=
  rc = L8W8JWT_DECODE_FAILED_INVALID_TOKEN_FORMAT ∧ ∃ a b, Parts tok a b ∧
    (LeaksTokens (jsonOf a) ∨ ((∃ ds, claimsIn env a = .ok (L8W8JWT_SUCCESS, ds)) ∧ LeaksTokens (jsonOf b)))

/-- What is leaked. -/
structure LeakPost (env : Env) (s : Sched) (tok : Bytes) (rc : Nat) (leak : List Nat) : Prop where
  none : RoomFor env s tok → leak = [] ∨ TokLeak tok
  one : s.good → LeakEnd env tok rc → leak.length = 1
  clean : s.good → ¬ LeakEnd env tok rc → leak = []

/-- Everything there is to say about the end of the body. -/
structure BodyPost (env : Env) (s : Sched) (h : Heap) (p : DecParams) (tok : Bytes) (st : DecState) (h' : Heap) : Prop where
  mem : ∃ leak, Mem h h' (stateIds st) leak ∧ LeakPost env s tok st.rc leak
  views : ∃ ds, Views st.claims.items ds
  out : Outcome env s p tok st

/-- Conditions under which decoding is defined. -/
structure DecSafe (env : Env) (s : Sched) (p : DecParams) (tok : Bytes) : Prop where
  stack : env.smallStack = false ∨ ∀ k, s.failAlloc k = false
  key : VerKeyReadable p
  ver : p.alg ≠ -1 → ∀ a b c, ThreeParts tok a b c → VerDefined env p (a ++ 46 :: b) c
  header : (∀ rc, ¬ VerifyFails env p tok rc) → ∀ a b, Parts tok a b → ∃ x, claimsIn env a = .ok x
  payload : (∀ rc, ¬ VerifyFails env p tok rc) → ∀ a b, Parts tok a b →
    (∃ x, claimsIn env b = .ok x) ∨ ∀ ds, claimsIn env a ≠ .ok (L8W8JWT_SUCCESS, ds)
  expect : ExpectOk p
  now : NowOk env.now
  typ : (∀ rc, ¬ VerifyFails env p tok rc) → p.validateTyp = none ∨ env.charSigned = false ∨
    (RoomFor env s tok ∧ ∀ a b ds1 ds2, Parts tok a b → claimsIn env a = .ok (L8W8JWT_SUCCESS, ds1) →
      claimsIn env b = .ok (L8W8JWT_SUCCESS, ds2) → TypDefined env p (ds1 ++ ds2))

theorem seg_facts {ptr : Ptr} {len : Nat} {text : Bytes} (hs : Seg ptr len text) (hl : text.length < 2 ^ 63) :
    ∃ id, ptr = some ⟨id, segBuf text⟩ ∧ len = (jsonOf text).length ∧ len ≠ 0 ∧ len + 13 ≤ (segBuf text).length ∧ len < 2 ^ 64 ∧
      (segBuf text).take len = jsonOf text ∧ parsePure env (segBuf text) len = claimsIn env text := by
  obtain ⟨id, d, rfl, hd, rfl⟩ := hs
  have h1 := segBuf_length hd
  have hne := decode_ne_nil hd
  have hj : jsonOf text = d := by simp [jsonOf, hd]
  have h2 : (text.filter (relevant true)).length ≤ text.length := List.length_filter_le _ _
  rw [List.length_append] at h1
  refine ⟨id, rfl, by rw [hj], ?_, by omega, by omega, ?_, ?_⟩
  · intro h0; exact hne (List.eq_nil_of_length_eq_zero h0)
  · rw [hj]; simp [segBuf, hd, padTo]
  · simp [claimsIn, hd]

theorem parts_len {tok a b : Bytes} (h : Parts tok a b) (hl : tok.length < 2 ^ 63) : a.length < 2 ^ 63 ∧ b.length < 2 ^ 63 := by
  rcases h with ⟨rfl, -⟩ | ⟨c, rfl, -⟩
  · simp at hl; omega
  · simp at hl; omega

theorem three_unique {tok a b c a' b' c' : Bytes} (h : ThreeParts tok a b c) (h' : ThreeParts tok a' b' c') : a = a' ∧ b = b' ∧ c = c' := by
  have key : ∀ (x y u v : Bytes), 46 ∉ x → 46 ∉ u → x ++ 46 :: y = u ++ 46 :: v → x = u ∧ y = v := by
    intro x
    induction x with
    | nil =>
      intro y u v _ hu he
      cases u with
      | nil => simpa using he
      | cons c u => simp at he hu; exact absurd he.1 hu.1
    | cons c x ih =>
      intro y u v hx hu he
      cases u with
      | nil => simp at he hx; exact absurd he.1.symm hx.1
      | cons c' u =>
        simp only [List.mem_cons, not_or] at hx hu
        simp only [List.cons_append, List.cons.injEq] at he
        obtain ⟨h1, h2⟩ := ih y u v hx.2 hu.2 he.2
        exact ⟨by rw [he.1, h1], h2⟩
  obtain ⟨e1, h2⟩ := key a _ a' _ h.2.1 h'.2.1 (h.1.symm.trans h'.1)
  obtain ⟨e2, e3⟩ := key b _ b' _ h.2.2 h'.2.2 h2
  exact ⟨e1, e2, e3⟩

theorem two_not_three {tok a b a' b' c : Bytes} (h2 : TwoParts tok a b) (h3 : ThreeParts tok a' b' c) : False := by
  have h3' : tok = a' ++ 46 :: (b' ++ 46 :: c) := h3.1
  have : tok = a ++ 46 :: b := h2.1
  rw [this] at h3'
  obtain ⟨-, e⟩ := split_unique 46 _ _ _ _ h2.2.1 h3.2.1 h3'
  exact h2.2.2 (by rw [e]; simp)

theorem two_unique {tok a b a' b' : Bytes} (h : TwoParts tok a b) (h' : TwoParts tok a' b') : a = a' ∧ b = b' :=
  split_unique 46 _ _ _ _ h.2.1 h'.2.1 (h.1.symm.trans h'.1)

theorem parts_unique {tok a b a' b' : Bytes} (h : Parts tok a b) (h' : Parts tok a' b') : a = a' ∧ b = b' := by
  rcases h with h | ⟨c, h⟩ <;> rcases h' with h' | ⟨c', h'⟩
  · exact two_unique h h'
  · exact (two_not_three h h').elim
  · exact (two_not_three h' h).elim
  · obtain ⟨h1, h2, -⟩ := three_unique h h'; exact ⟨h1, h2⟩

theorem noLeak {tok : Bytes} {rc : Nat} (h : s.good → ¬ LeakEnd env tok rc) : LeakPost env s tok rc [] :=
  ⟨fun _ => Or.inl rfl, fun g hx => absurd hx (h g), fun _ _ => rfl⟩

theorem claimsIn_eq {a : Bytes} (hj : jsonOf a ≠ []) : ∃ pad, 13 ≤ pad.length ∧
    claimsIn env a = parsePure env (jsonOf a ++ pad) (jsonOf a).length := by
  cases hd : b64Decode true a with
  | none => simp [jsonOf, hd] at hj
  | some d =>
    have hl := segBuf_length hd
    have : ∃ pad, segBuf a = d ++ pad := by simp only [segBuf, hd, padTo]; exact ⟨_, by simp [List.append_assoc]; rfl⟩
    obtain ⟨pad, hp⟩ := this
    refine ⟨pad, ?_, ?_⟩
    · rw [hp] at hl
      simp only [List.length_append] at hl
      omega
    · simp [claimsIn, hp, jsonOf, hd]

/-- A text from which claims were read does not make the parser leak. -/
theorem no_leak_of_claims {a : Bytes} {ds : List DClaim} (hc : claimsIn env a = .ok (L8W8JWT_SUCCESS, ds)) : ¬ LeaksTokens (jsonOf a) := by
  rintro ⟨n, e, h1, h2, h3⟩
  by_cases hj : jsonOf a = []
  · rw [hj] at h1
    have : n = 0 := by
      have h4 : jsmnCount [] = .ok 0 := by decide
      rw [h4] at h1
      injection h1 with h1
      exact h1.symm
    omega
  · obtain ⟨pad, -, he⟩ := claimsIn_eq (env := env) hj
    rw [he] at hc
    unfold parsePure at hc
    rw [List.take_left, h1] at hc
    cases n with
    | zero => omega
    | succ n =>
      simp only [h3] at hc
      injection hc with hc
      injection hc with hc _
      exact absurd hc (by decide)

theorem sig_verifyFails {tok : Bytes} {rc : Nat} (hs : Sig env p tok (.error rc)) : VerifyFails env p tok rc := by
  rcases hs with ⟨-, hx⟩ | ⟨ha, a, b, c, d, h3, -, hv⟩
  · cases hx
  · exact ⟨ha, a, b, c, h3, hv⟩

theorem sig_not_verifyFails {tok : Bytes} {vr : Bool} (hs : Sig env p tok (.ok vr)) (rc : Nat) : ¬ VerifyFails env p tok rc := by
  rintro ⟨hn, a', b', c', h3', hx⟩
  rcases hs with ⟨ha, -⟩ | ⟨ha, a, b, c, d, h3, -, hv⟩
  · exact hn ha
  · obtain ⟨rfl, rfl, rfl⟩ := three_unique h3 h3'
    cases vr with
    | true => exact hv.1 _ hx
    | false => exact hv.1 _ hx

/-- What remains after the signature step. -/
def afterSig (env : Env) (p : DecParams) (blk : Ptr) (sg : Segs) (v : VRes) : M DecState := do
  let (r, cs) ← parseClaims env [] sg.header sg.headerLength
  if r ≠ L8W8JWT_SUCCESS then
    pure ⟨L8W8JWT_DECODE_FAILED_INVALID_TOKEN_FORMAT, sg, ⟨blk, cs⟩, ~~~L8W8JWT_VALID⟩
  else do
    let (r, cs) ← parseClaims env cs sg.payload sg.payloadLength
    if r ≠ L8W8JWT_SUCCESS then
      pure ⟨L8W8JWT_DECODE_FAILED_INVALID_TOKEN_FORMAT, sg, ⟨blk, cs⟩, ~~~L8W8JWT_VALID⟩
    else do
      let v ← M.lift (validateClaims env p cs v)
      pure ⟨L8W8JWT_SUCCESS, sg, ⟨blk, cs⟩, v⟩

theorem wp_afterSig {tok a b : Bytes} {blk : Block} {sg : Segs} {vr : Bool} {h0 : Heap} (E : UB → Prop)
    (hE : DecSafe env s p tok ∨ ∀ e, E e) (hl : tok.length < 2 ^ 63)
    (hi : SegInfo s p.alg tok sg) (hrc : sg.rc = L8W8JWT_SUCCESS) (hsig : Sig env p tok (.ok vr)) (hp : Parts tok a b)
    (h1 : Seg sg.header sg.headerLength a) (h2 : Seg sg.payload sg.payloadLength b)
    (hm : Mem h0 h (sg.header.ids ++ (sg.payload.ids ++ (sg.signature.ids ++ [blk.id]))) []) :
    wp (afterSig env p (some blk) sg (if vr then 0 else L8W8JWT_SIGNATURE_VERIFICATION_FAILURE)) s h (BodyPost env s h0 p tok) E := by
  obtain ⟨l1, l2⟩ := parts_len hp hl
  obtain ⟨ia, a1, -, -, a4, a5, a6, a7⟩ := seg_facts (env := env) h1 l1
  obtain ⟨ib, b1, -, -, b4, b5, b6, b7⟩ := seg_facts (env := env) h2 l2
  have hnf := sig_not_verifyFails hsig
  have room1 : RoomFor env s tok → Room s [] (claimsIn env a) := by
    rintro (g | g)
    · exact Or.inl g
    · obtain ⟨x, y, e1, e2, hxy⟩ := g a b hp
      exact Or.inr ⟨x, e1, by simp; omega⟩
  have hfew1 : (∃ x, claimsIn env a = .ok x) ∨ E .oobRead := by
    rcases hE with hE | hE
    · exact Or.inl (hE.header hnf a b hp)
    · exact Or.inr (hE _)
  unfold afterSig
  rw [wp_bind]
  have w1 := wp_parseClaims (s := s) (h := h) (env := env) (id := ia) a4 a5 [] E (by rw [a7]; exact hfew1)
  rw [← a1] at w1
  refine wp_mono w1 ?_ (fun _ he => he)
  rintro ⟨r1, cs1⟩ h2' ⟨new1, leak1, ds1, q1⟩
  rw [a6, a7] at q1
  have c1 : cs1 = new1 := by simpa using q1.claims
  subst c1
  have room2 : RoomFor env s tok → r1 = L8W8JWT_SUCCESS → Room s cs1 (claimsIn env b) := by
    intro g hr
    have hd := q1.data (room1 g) (by simp [hr])
    rcases g with g | g
    · exact Or.inl g
    · obtain ⟨x, y, e1, e2, hxy⟩ := g a b hp
      rw [hd] at e1
      cases e1
      refine Or.inr ⟨y, e2, ?_⟩
      have := q1.views.length
      simp only at hxy
      omega
  have m1 := hm.trans q1.mem
  have order1 : Mem h0 h2' (sg.header.ids ++ (sg.payload.ids ++ (sg.signature.ids ++ (claimIds cs1 ++ [blk.id])))) leak1 := by
    refine m1.perm ?_
    simp only [List.append_assoc, List.nil_append]
    refine List.Perm.append_left _ (List.Perm.append_left _ (List.Perm.append_left _ ?_))
    rw [← List.append_assoc, ← List.append_assoc]
    exact List.perm_append_comm.append_right _
  simp only
  by_cases hr1 : r1 ≠ L8W8JWT_SUCCESS
  · rw [if_pos hr1]
    have hno : s.noAllocFail → r1 ≠ L8W8JWT_OUT_OF_MEM := by
      intro g ho
      rcases q1.code with h | h | h
      · exact hr1 h
      · have : (r1 : Nat) = L8W8JWT_DECODE_FAILED_INVALID_TOKEN_FORMAT := h
        rw [ho] at this; exact absurd this (by decide)
      · exact h.2 g
    have hdata : s.good → claimsIn env a = .ok (r1, ds1) := fun g => q1.data (Or.inl g.2) (hno g.1)
    refine ⟨⟨leak1, ?_, fun g => (q1.noLeak (room1 g)).imp id (fun hx => ⟨a, b, hp, Or.inl hx⟩), ?_, ?_⟩, ⟨ds1, q1.views⟩,
      .claims hi hrc hsig hp (fun g => Or.inl (by
        obtain ⟨fs, e, -⟩ := q1.full (hno g)
        exact ⟨r1, fs, e, hr1⟩))⟩
    · simpa [stateIds, Ptr.ids] using order1
    · rintro g ⟨-, x, y, hxy, hl⟩
      obtain ⟨rfl, rfl⟩ := parts_unique hp hxy
      rcases hl with hl | ⟨⟨ds, hl⟩, -⟩
      · exact q1.leaks g hl
      · rw [hdata g] at hl
        cases hl
        exact absurd rfl hr1
    · intro g hn
      rcases q1.noLeak (Or.inl g.2) with e | e
      · exact e
      · exact absurd ⟨rfl, a, b, hp, Or.inl e⟩ hn
  · rw [if_neg hr1]
    have hr1 : r1 = L8W8JWT_SUCCESS := by simpa using hr1
    subst hr1
    rw [wp_bind]
    have hfew2 : (∃ x, claimsIn env b = .ok x) ∨ E .oobRead := by
      rcases hE with hE | hE
      · rcases hE.payload hnf a b hp with hx | hx
        · exact Or.inl hx
        · obtain ⟨fs1, e1, -⟩ := q1.full (by simp)
          exact absurd e1 (hx fs1)
      · exact Or.inr (hE _)
    have w2 := wp_parseClaims (s := s) (h := h2') (env := env) (id := ib) b4 b5 cs1 E (by rw [b7]; exact hfew2)
    rw [← b1] at w2
    refine wp_mono w2 ?_ (fun _ he => he)
    rintro ⟨r2, cs2⟩ h3 ⟨new2, leak2, ds2, q2⟩
    rw [b6, b7] at q2
    have c2 : cs2 = cs1 ++ new2 := by simpa using q2.claims
    subst c2
    have m2 := order1.trans q2.mem
    have order2 : Mem h0 h3 (sg.header.ids ++ (sg.payload.ids ++ (sg.signature.ids ++ (claimIds (cs1 ++ new2) ++ [blk.id])))) (leak1 ++ leak2) := by
      refine m2.perm1 ?_
      simp only [List.append_assoc, claimIds_append]
      refine List.Perm.append_left _ (List.Perm.append_left _ (List.Perm.append_left _ (List.Perm.append_left _ ?_)))
      exact List.perm_append_comm
    have hleak : RoomFor env s tok → leak1 ++ leak2 = [] ∨ TokLeak tok := by
      intro g
      rcases q1.noLeak (room1 g) with e1 | e1
      · rcases q2.noLeak (room2 g rfl) with e2 | e2
        · exact Or.inl (by rw [e1, e2]; rfl)
        · exact Or.inr ⟨a, b, hp, Or.inr e2⟩
      · exact Or.inr ⟨a, b, hp, Or.inl e1⟩
    have hviews := q1.views.append q2.views
    simp only
    by_cases hr2 : r2 ≠ L8W8JWT_SUCCESS
    · rw [if_pos hr2]
      have hno : s.noAllocFail → r2 ≠ L8W8JWT_OUT_OF_MEM := by
        intro g ho
        rcases q2.code with h | h | h
        · exact hr2 h
        · have : (r2 : Nat) = L8W8JWT_DECODE_FAILED_INVALID_TOKEN_FORMAT := h
          rw [ho] at this; exact absurd this (by decide)
        · exact h.2 g
      refine ⟨⟨leak1 ++ leak2, ?_, hleak, ?_, ?_⟩, ⟨_, hviews⟩, .claims hi hrc hsig hp (fun g =>
        Or.inr (by
          obtain ⟨fs1, e1, -⟩ := q1.full (by simp)
          obtain ⟨fs2, e2, -⟩ := q2.full (hno g)
          exact ⟨fs1, r2, fs2, e1, e2, hr2⟩))⟩
      · simpa [stateIds, Ptr.ids] using order2
      · rintro g ⟨-, x, y, hxy, hl⟩
        obtain ⟨rfl, rfl⟩ := parts_unique hp hxy
        have hna := no_leak_of_claims (q1.data (Or.inl g.2) (by simp))
        rcases hl with hl | ⟨-, hl⟩
        · exact absurd hl hna
        · rw [(q1.noLeak (Or.inl g.2)).resolve_right hna]
          exact q2.leaks g hl
      · intro g hn
        have hna := no_leak_of_claims (q1.data (Or.inl g.2) (by simp))
        rw [(q1.noLeak (Or.inl g.2)).resolve_right hna]
        rcases q2.noLeak (Or.inl g.2) with e | e
        · exact e
        · exact absurd ⟨rfl, a, b, hp, Or.inr ⟨⟨_, q1.data (Or.inl g.2) (by simp)⟩, e⟩⟩ hn
    · rw [if_neg hr2]
      have hr2 : r2 = L8W8JWT_SUCCESS := by simpa using hr2
      subst hr2
      rw [wp_bind, wp_lift]
      have hfin : ∀ v, validateClaims env p (cs1 ++ new2) (if vr then 0 else L8W8JWT_SIGNATURE_VERIFICATION_FAILURE) = .ok v →
          BodyPost env s h0 p tok ⟨L8W8JWT_SUCCESS, sg, ⟨some blk, cs1 ++ new2⟩, v⟩ h3 := fun v hv =>
        ⟨⟨leak1 ++ leak2, by simpa [stateIds, Ptr.ids] using order2, hleak, fun _ hx => absurd hx.1 (by simp),
            fun g _ => by
              rw [(q1.noLeak (Or.inl g.2)).resolve_right (no_leak_of_claims (q1.data (Or.inl g.2) (by simp))),
                (q2.noLeak (Or.inl g.2)).resolve_right (no_leak_of_claims (q2.data (Or.inl g.2) (by simp)))]; rfl⟩, ⟨_, hviews⟩,
          .done hi hrc hsig hp hviews (fun g => ⟨q1.data (room1 g) (by simp), q2.data (room2 g rfl) (by simp)⟩) hv
            (by
              obtain ⟨fs1, e1, s1⟩ := q1.full (by simp)
              obtain ⟨fs2, e2, s2⟩ := q2.full (by simp)
              exact ⟨fs1, fs2, e1, e2, s1, s2⟩)⟩
      rcases hE with hE | hE
      · have ha : TypDefined env p (ds1 ++ ds2) := by
          rcases hE.typ hnf with ht | ht | ⟨g, ht⟩
          · intro _ e d he; rw [ht] at he; cases he
          · intro hc; rw [ht] at hc; cases hc
          · exact ht a b ds1 ds2 hp (q1.data (room1 g) (by simp)) (q2.data (room2 g rfl) (by simp))
        have hv := validateClaims_eq hviews hE.expect hE.now ha (if vr then 0 else L8W8JWT_SIGNATURE_VERIFICATION_FAILURE)
        exact rwp_of_eq hv (hfin _ hv)
      · cases hv : validateClaims env p (cs1 ++ new2) (if vr then 0 else L8W8JWT_SIGNATURE_VERIFICATION_FAILURE) with
        | error e => exact hE e
        | ok v => exact hfin v hv

theorem SegPost.info {alg : Int} {tok : Bytes} {sg : Segs} (q : SegPost s h alg tok sg h') : SegInfo s alg tok sg := ⟨q.code, q.parts, q.handed⟩

theorem decodeBody_eq : decodeBody env p = (do
    let blk ← alloc []
    match blk with
    | none => pure ⟨L8W8JWT_OUT_OF_MEM, { rc := 0 }, ⟨none, []⟩, ~~~L8W8JWT_VALID⟩
    | some _ => do
      let s ← decodeSegments p
      if s.rc ≠ L8W8JWT_SUCCESS then pure ⟨s.rc, s, ⟨blk, []⟩, ~~~L8W8JWT_VALID⟩
      else do
        let (r, v) ← verifySignature env p L8W8JWT_VALID s.signature s.signatureLength
        if r ≠ L8W8JWT_SUCCESS then pure ⟨r, s, ⟨blk, []⟩, ~~~L8W8JWT_VALID⟩
        else afterSig env p blk s v) := rfl

/-- The body of the decode functions: safe under the conditions, and correct. -/
theorem wp_decodeBody {tok : Bytes} (hc : CryptoOk env.crypto) (hv : validateDecodingParams env (some p) = L8W8JWT_SUCCESS)
    (ht : TokenMem p tok) (E : UB → Prop) (hE : (SegCode p.alg tok L8W8JWT_SUCCESS → DecSafe env s p tok) ∨ ∀ e, E e) :
    wp (decodeBody env p) s h (BodyPost env s h p tok) E := by
  rw [decodeBody_eq, wp_bind, wp_alloc]
  refine ⟨fun hf => ?_, fun hf => ?_⟩
  · exact ⟨⟨[], (Mem.refl h).keeps (Keeps.tick h), noLeak (fun _ hx => absurd hx.1 (by decide))⟩, ⟨[], .nil⟩, .oom (fun hn => by rw [hn] at hf; cases hf)⟩
  simp only
  have m0 : Mem h { tick := h.tick + 1, live := h.tick :: h.live } [h.tick] [] := (Mem.refl h).alloc
  generalize ({ tick := h.tick + 1, live := h.tick :: h.live } : Heap) = h1 at m0 ⊢
  rw [wp_bind]
  refine wp_mono (wp_decodeSegments p tok ht E) (fun sg h2 q => ?_) (fun _ he => he)
  have m1 : Mem h h2 (sg.header.ids ++ (sg.payload.ids ++ (sg.signature.ids ++ [h.tick]))) [] := by
    refine (m0.trans (Mem.of_owns q.owns)).perm1 ?_
    refine List.perm_append_comm.trans ?_
    simp only [← List.append_assoc]
    refine List.Perm.append_right _ ?_
    refine List.perm_append_comm.trans ?_
    rw [List.append_assoc]
    refine List.Perm.append_left _ ?_
    exact List.perm_append_comm
  by_cases hrc : sg.rc ≠ L8W8JWT_SUCCESS
  · rw [if_pos hrc]
    refine ⟨⟨[], by simpa [stateIds, claimIds, Ptr.ids] using m1, noLeak (fun g hx => ?_)⟩, ⟨[], .nil⟩, .segs q.info hrc⟩
    obtain ⟨hx, a, b, hp, -⟩ := hx
    rcases q.code with hk | hk
    · rcases hk with ⟨hd, -⟩ | ⟨a, b, -, hk⟩ | ⟨a, b, c, -, hk⟩
      · rcases hp with hp | ⟨c, hp⟩ <;> exact hd (by rw [hp.1]; simp)
      · rcases hk with hk | hk | hk | hk
        · exact absurd (hk.2.symm.trans hx) (by decide)
        · exact absurd (hk.2.2.symm.trans hx) (by decide)
        · exact absurd (hk.2.2.2.symm.trans hx) (by decide)
        · exact absurd (hk.2.2.2.symm.trans hx) (by decide)
      · rcases hk with hk | hk
        · exact absurd (hk.2.symm.trans hx) (by decide)
        · exact absurd (hk.2.2.2.symm.trans hx) (by decide)
    · exact hk.2 g.1
  rw [if_neg hrc]
  have hrc : sg.rc = L8W8JWT_SUCCESS := by simpa using hrc
  have hE : DecSafe env s p tok ∨ ∀ e, E e := by
    refine hE.imp (fun hx => hx ?_) id
    rcases q.code with hx | hx
    · rwa [hrc] at hx
    · rw [hx.1] at hrc; exact absurd hrc (by decide)
  have hl : tok.length < 2 ^ 63 := ht.2.2.2
  rw [wp_bind]
  by_cases ha : p.alg = -1
  · rw [verifySignature_none _ _ _ ha, wp_pure]
    simp only
    rw [if_neg (by decide)]
    have hsig : Sig env p tok (.ok true) := Or.inl ⟨ha, rfl⟩
    rcases q.parts with ⟨hd, he⟩ | ⟨a, b, h2p, -, -, -, -, hs⟩ | ⟨a, b, c, h3p, -, -, -, hs⟩
    · exfalso
      rcases q.code with h | h
      · rcases h with ⟨-, h⟩ | ⟨a, b, h2p, -⟩ | ⟨a, b, c, h3p, -⟩
        · rw [h] at hrc; exact absurd hrc (by decide)
        · exact hd (by rw [h2p.1]; simp)
        · exact hd (by rw [h3p.1]; simp)
      · rw [h.1] at hrc; exact absurd hrc (by decide)
    · obtain ⟨-, s1, s2⟩ := hs hrc
      exact wp_afterSig (vr := true) E hE hl q.info hrc hsig (Or.inl h2p) s1 s2 m1
    · obtain ⟨s1, s2, -⟩ := hs hrc
      exact wp_afterSig (vr := true) E hE hl q.info hrc hsig (Or.inr ⟨c, h3p⟩) s1 s2 m1
  · have h3 : ∃ a b c, ThreeParts tok a b c ∧ Seg sg.header sg.headerLength a ∧ Seg sg.payload sg.payloadLength b ∧
        Seg sg.signature sg.signatureLength c := by
      rcases q.parts with ⟨hd, he⟩ | ⟨a, b, h2p, -, -, -, -, hs⟩ | ⟨a, b, c, h3p, -, -, -, hs⟩
      · exfalso
        rcases q.code with h | h
        · rcases h with ⟨-, h⟩ | ⟨a, b, h2p, -⟩ | ⟨a, b, c, h3p, -⟩
          · rw [h] at hrc; exact absurd hrc (by decide)
          · exact hd (by rw [h2p.1]; simp)
          · exact hd (by rw [h3p.1]; simp)
        · rw [h.1] at hrc; exact absurd hrc (by decide)
      · exact absurd (hs hrc).1 ha
      · obtain ⟨s1, s2, s3⟩ := hs hrc
        exact ⟨a, b, c, h3p, s1, s2, s3⟩
    obtain ⟨a, b, c, h3p, s1, s2, s3⟩ := h3
    obtain ⟨id, d, e1, e2, e3⟩ := s3
    have hn : sg.signatureLength ≠ 0 := by
      rw [e3]; intro h0; exact decode_ne_nil e2 (List.eq_nil_of_length_eq_zero h0)
    have hb : rwp (verifyBody env p (segBuf c) sg.signatureLength)
        (fun r => VerDefined env p (a ++ 46 :: b) c ∧ VerPost env p (a ++ 46 :: b) c r) E := by
      rw [e3]
      have hb1 := verifyBody_post hc hv ht h3p e2 E (by
        rcases hE with hE | hE
        · exact Or.inl ⟨hE.key, hE.ver ha a b c h3p⟩
        · exact Or.inr hE)
      have hb2 := verifyBody_needs hc hv ht h3p e2
      cases hx : verifyBody env p (segBuf c) d.length with
      | error e => rw [hx] at hb1; exact hb1
      | ok r => rw [hx] at hb1 hb2; exact ⟨hb2.2, hb1⟩
    rw [e1]
    refine wp_mono (wp_verifySignature _ id _ _ ha hn E _ ?_ hb) ?_ (fun _ he => he)
    · rcases hE with hE | hE
      · exact Or.inl hE.stack
      · exact Or.inr (hE _)
    rintro ⟨r, v⟩ h3 ⟨hk, vr, ⟨hdef, hq⟩, hr⟩
    have m2 := m1.keeps hk
    have hsig : Sig env p tok vr := Or.inr ⟨ha, a, b, c, d, h3p, ⟨e2, hdef⟩, hq⟩
    cases vr with
    | error rc =>
      simp only [sigResult, Prod.mk.injEq] at hr
      obtain ⟨rfl, rfl⟩ := hr
      simp only
      rw [if_pos (verFails_codes hq).1]
      exact ⟨⟨[], by simpa [stateIds, claimIds, Ptr.ids] using m2, noLeak (fun _ hx => (verFails_codes hq).2 hx.1)⟩, ⟨[], .nil⟩, .verify q.info hrc hsig⟩
    | ok vb =>
      have hr' : (r, v) = (L8W8JWT_SUCCESS, if vb then 0 else L8W8JWT_SIGNATURE_VERIFICATION_FAILURE) := by
        rw [hr]; cases vb <;> rfl
      cases hr'
      simp only
      rw [if_neg (by decide)]
      exact wp_afterSig E hE hl q.info hrc hsig (Or.inr ⟨c, h3p⟩) s1 s2 m2

/-! ## Freeing claims -/

theorem zeroize_view (i : Nat) (x z : Bytes) (E : UB → Prop) : rwp (zeroize (some ⟨i, x ++ 0 :: z⟩) x.length) (fun _ => True) E := by
  unfold zeroize
  split
  · trivial
  · simp only [List.length_append]
    rw [if_pos (by omega)]
    trivial

theorem wp_freeClaimsLoop {cs : List Claim} {ds : List DClaim} (hv : Views cs ds) {h0 : Heap} {m leak : List Nat} (E : UB → Prop)
    (hm : Mem h0 h (claimIds cs ++ m) leak) : wp (freeClaimsLoop cs) s h (fun _ h' => Mem h0 h' m leak) E := by
  induction hv generalizing h with
  | nil => show Mem h0 h m leak; simpa [claimIds] using hm
  | @cons c d l _ v _ ih =>
    obtain ⟨⟨i, z, k1, k2⟩, ⟨j, w, v1, v2⟩, -⟩ := v
    unfold freeClaimsLoop
    rw [wp_bind, wp_lift, k1, k2]
    refine rwp_mono (zeroize_view i _ z E) (fun _ _ => ?_) (fun _ he => he)
    rw [wp_bind, wp_lift, v1, v2]
    refine rwp_mono (zeroize_view j _ w E) (fun _ _ => ?_) (fun _ he => he)
    rw [wp_bind]
    have hm' : Mem h0 h (c.key.ids ++ (c.value.ids ++ (claimIds l ++ m))) leak := by simpa [claimIds] using hm
    rw [k1, v1] at hm'
    refine wp_freeMem _ _ _ hm' (fun h1 _ m1 => ?_)
    rw [wp_bind]
    exact wp_freeMem _ _ _ m1 (fun h2 _ m2 => ih m2)

theorem wp_freeClaims {a : ClaimArr} {ds : List DClaim} (hv : Views a.items ds) (hn : a.blk = none → a.items = []) {h0 : Heap}
    {m leak : List Nat} (E : UB → Prop) (hm : Mem h0 h (claimIds a.items ++ (a.blk.ids ++ m)) leak) :
    wp (freeClaims a a.items.length) s h (fun _ h' => Mem h0 h' m leak) E := by
  unfold freeClaims
  cases hb : a.blk with
  | none =>
    simp only [hn hb, hb] at hm
    simpa [claimIds, Ptr.ids] using hm
  | some b =>
    simp only [rdN, Nat.le_refl, if_true, List.take_length]
    rw [wp_bind, wp_lift, rwp_ok, wp_bind]
    refine wp_mono (wp_freeClaimsLoop hv E hm) (fun _ h1 m1 => ?_) (fun _ he => he)
    rw [hb] at m1
    exact wp_freeMem _ _ _ m1 (fun _ _ m2 => m2)

theorem Outcome.blk {tok : Bytes} {st : DecState} (o : Outcome env s p tok st) : st.claims.blk = none → st.claims.items = [] := by
  cases o with
  | oom => intro _; rfl
  | segs => intro hb; cases hb
  | verify => intro hb; cases hb
  | claims => intro hb; cases hb
  | done => intro hb; cases hb

/-! ## decode -/

/-- What `l8w8jwt_decode` writes, given the state at the `exit` label. -/
def decOut (outClaimsNull : Bool) (st : DecState) : DecOut :=
  if outClaimsNull || st.rc ≠ L8W8JWT_SUCCESS then { rc := st.rc, validation := some st.validation }
  else { rc := st.rc, validation := some st.validation, claims := some st.claims, claimsLength := some st.claims.items.length }

/-- The blocks of a claim array. -/
def arrIds (a : ClaimArr) : List Nat := claimIds a.items ++ a.blk.ids

/-- The blocks handed out by `l8w8jwt_decode`. -/
def outIds (o : DecOut) : List Nat :=
  match o.claims with
  | none => []
  | some a => arrIds a

theorem wp_decode_of_body {tok : Bytes} (hv : validateDecodingParams env (some p) = L8W8JWT_SUCCESS)
    (outClaimsNull outLenNull : Bool) (hl : outClaimsNull = true ∨ outLenNull = false) (E : UB → Prop)
    (hb : wp (decodeBody env p) s h (BodyPost env s h p tok) E) :
    wp (decode env (some p) false outClaimsNull outLenNull) s h (fun o h' =>
      (∃ st, Outcome env s p tok st ∧ (∃ ds, Views st.claims.items ds) ∧ o = decOut outClaimsNull st) ∧
      ∃ leak, Mem h h' (outIds o) leak ∧ LeakPost env s tok o.rc leak) E := by
  unfold decode
  have h1 : (!outClaimsNull && outLenNull) = false := by rcases hl with rfl | rfl <;> simp
  simp only [h1, Bool.false_eq_true, if_false, hv, ne_eq, not_true_eq_false]
  rw [wp_bind]
  refine wp_mono hb (fun st h1 q => ?_) (fun _ he => he)
  obtain ⟨⟨leak, hm, hleak⟩, ⟨ds, hvw⟩, ho⟩ := q
  unfold stateIds at hm
  rw [wp_bind]
  refine wp_freeMem _ _ _ hm (fun h2 _ m2 => ?_)
  rw [wp_bind]
  refine wp_freeMem _ _ _ m2 (fun h3 _ m3 => ?_)
  rw [wp_bind]
  refine wp_freeMem _ _ _ m3 (fun h4 _ m4 => ?_)
  by_cases hk : (outClaimsNull || decide (¬ st.rc = L8W8JWT_SUCCESS)) = true
  · rw [if_pos hk, wp_bind]
    refine wp_mono (wp_freeClaims (m := []) (leak := leak) hvw ho.blk E (by simpa using m4)) (fun _ h5 m5 => ?_) (fun _ he => he)
    have he : decOut outClaimsNull st = { rc := st.rc, validation := some st.validation } := by unfold decOut; rw [if_pos hk]
    exact ⟨⟨st, ho, ⟨ds, hvw⟩, he.symm⟩, leak, m5, hleak⟩
  · rw [if_neg hk]
    have he : decOut outClaimsNull st = { rc := st.rc, validation := some st.validation, claims := some st.claims, claimsLength := some st.claims.items.length } := by
      unfold decOut; rw [if_neg hk]
    exact ⟨⟨st, ho, ⟨ds, hvw⟩, he.symm⟩, leak, m4, hleak⟩

theorem wp_decode {tok : Bytes} (hc : CryptoOk env.crypto) (hv : validateDecodingParams env (some p) = L8W8JWT_SUCCESS)
    (ht : TokenMem p tok) (outClaimsNull outLenNull : Bool) (hl : outClaimsNull = true ∨ outLenNull = false) (E : UB → Prop)
    (hE : (SegCode p.alg tok L8W8JWT_SUCCESS → DecSafe env s p tok) ∨ ∀ e, E e) :
    wp (decode env (some p) false outClaimsNull outLenNull) s h (fun o h' =>
      (∃ st, Outcome env s p tok st ∧ (∃ ds, Views st.claims.items ds) ∧ o = decOut outClaimsNull st) ∧
      ∃ leak, Mem h h' (outIds o) leak ∧ LeakPost env s tok o.rc leak) E :=
  wp_decode_of_body hv _ _ hl E (wp_decodeBody hc hv ht E hE)

/-! ## The raw functions -/

theorem decodeRawBody_eq : decodeRawBody env p = decodeBody env p := rfl

/-- What a raw function gives to the caller. -/
def given (outNull : Bool) (q : Ptr) (len : Nat) : Option (Ptr × Nat) := if outNull then none else some (q, len)

/-- The block of a buffer given to the caller. -/
def givenIds (o : Option (Ptr × Nat)) : List Nat :=
  match o with
  | none => []
  | some (q, _) => q.ids

theorem wp_giveOrFree {h0 : Heap} {m leak : List Nat} (b : Bool) (q : Ptr) (n : Nat) (Q : Option (Ptr × Nat) → Heap → Prop) (E : UB → Prop)
    (hm : Mem h0 h (q.ids ++ m) leak) (hQ : ∀ h', Mem h0 h' (m ++ givenIds (given b q n)) leak → Q (given b q n) h') :
    wp (giveOrFree b q n) s h Q E := by
  unfold giveOrFree
  cases b with
  | true =>
    simp only [if_true]
    rw [wp_bind]
    refine wp_freeMem _ _ _ hm (fun h1 _ m1 => ?_)
    exact hQ _ (by simpa [given, givenIds] using m1)
  | false => exact hQ _ (hm.perm1 List.perm_append_comm)

/-- What `l8w8jwt_decode_raw` writes, given the state at the `exit` label. -/
def rawOut (a : RawArgs) (st : DecState) : RawOut where
  rc := st.rc
  validation := some st.validation
  header := given a.header st.segs.header st.segs.headerLength
  payload := given a.payload st.segs.payload st.segs.payloadLength
  signature := given a.signature st.segs.signature st.segs.signatureLength

/-- The blocks handed out by the raw functions. -/
def rawIds (o : RawOut) : List Nat := givenIds o.header ++ (givenIds o.payload ++ givenIds o.signature)

theorem wp_decodeRaw_of_body {tok : Bytes} (hv : validateDecodingParams env (some p) = L8W8JWT_SUCCESS)
    (a : RawArgs) (ha : a.bad = false) (E : UB → Prop) (hb : wp (decodeBody env p) s h (BodyPost env s h p tok) E) :
    wp (decodeRaw env (some p) false a) s h (fun o h' =>
      (∃ st, Outcome env s p tok st ∧ o = rawOut a st) ∧
      ∃ leak, Mem h h' (rawIds o) leak ∧ LeakPost env s tok o.rc leak) E := by
  unfold decodeRaw
  simp only [ha, Bool.or_self, Bool.false_eq_true, if_false, hv, ne_eq, not_true_eq_false]
  rw [wp_bind, decodeRawBody_eq]
  refine wp_mono hb (fun st h1 q => ?_) (fun _ he => he)
  obtain ⟨⟨leak, hm, hleak⟩, ⟨ds, hvw⟩, ho⟩ := q
  unfold stateIds at hm
  rw [wp_bind]
  refine wp_giveOrFree _ _ _ _ _ hm (fun h2 m2 => ?_)
  simp only [List.append_assoc] at m2
  rw [wp_bind]
  refine wp_giveOrFree _ _ _ _ _ m2 (fun h3 m3 => ?_)
  simp only [List.append_assoc] at m3
  rw [wp_bind]
  refine wp_giveOrFree _ _ _ _ _ m3 (fun h4 m4 => ?_)
  simp only [List.append_assoc] at m4
  rw [wp_bind]
  refine wp_mono (wp_freeClaims hvw ho.blk E m4) (fun _ h5 m5 => ?_) (fun _ he => he)
  exact ⟨⟨st, ho, rfl⟩, leak, m5, hleak⟩

theorem wp_decodeRaw {tok : Bytes} (hc : CryptoOk env.crypto) (hv : validateDecodingParams env (some p) = L8W8JWT_SUCCESS)
    (ht : TokenMem p tok) (a : RawArgs) (ha : a.bad = false) (E : UB → Prop)
    (hE : (SegCode p.alg tok L8W8JWT_SUCCESS → DecSafe env s p tok) ∨ ∀ e, E e) :
    wp (decodeRaw env (some p) false a) s h (fun o h' =>
      (∃ st, Outcome env s p tok st ∧ o = rawOut a st) ∧
      ∃ leak, Mem h h' (rawIds o) leak ∧ LeakPost env s tok o.rc leak) E :=
  wp_decodeRaw_of_body hv a ha E (wp_decodeBody hc hv ht E hE)

/-- What `l8w8jwt_decode_raw_no_validation` writes. -/
def rawNvOut (a : RawArgs) (sg : Segs) : RawOut where
  rc := sg.rc
  header := given a.header sg.header sg.headerLength
  payload := given a.payload sg.payload sg.payloadLength
  signature := given a.signature sg.signature sg.signatureLength

theorem wp_decodeRawNv {tok : Bytes} (hv : validateDecodingParams env (some p) = L8W8JWT_SUCCESS)
    (ht : TokenMem p tok) (a : RawArgs) (ha : a.bad = false) (hn : (a.header && a.payload && a.signature) = false) (E : UB → Prop) :
    wp (decodeRawNoValidation env (some p) a) s h (fun o h' =>
      (∃ sg, SegInfo s p.alg tok sg ∧ o = rawNvOut a sg) ∧ Mem h h' (rawIds o) []) E := by
  unfold decodeRawNoValidation
  simp only [ha, hn, Bool.or_self, Bool.false_eq_true, if_false, hv, ne_eq, not_true_eq_false]
  rw [wp_bind]
  refine wp_mono (wp_decodeSegments p tok ht E) (fun sg h1 q => ?_) (fun _ he => he)
  have hm : Mem h h1 (sg.header.ids ++ (sg.payload.ids ++ sg.signature.ids)) [] := by
    refine (Mem.of_owns q.owns).perm1 ?_
    refine List.perm_append_comm.trans ?_
    rw [← List.append_assoc]
    refine List.Perm.append_right _ ?_
    exact List.perm_append_comm
  rw [wp_bind]
  refine wp_giveOrFree _ _ _ _ _ hm (fun h2 m2 => ?_)
  simp only [List.append_assoc] at m2
  rw [wp_bind]
  refine wp_giveOrFree _ _ _ _ _ m2 (fun h3 m3 => ?_)
  simp only [List.append_assoc] at m3
  rw [wp_bind]
  refine wp_giveOrFree _ _ _ _ _ m3 (fun h4 m4 => ?_)
  simp only [List.append_assoc] at m4
  exact ⟨⟨sg, q.info, rfl⟩, m4⟩

end L8w8jwt
