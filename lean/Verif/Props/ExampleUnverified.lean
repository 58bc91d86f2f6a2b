import Verif.Props.ExampleTokens
/-!
# C85: examples/hs256/decode.c
-/

namespace L8w8jwt.C

open Spec

variable {env : Env} {fuel : Nat} {s : Sched} {key jwt : Bytes} {name n : String} {t : Int} {c : Bytes}

/-- The state when `l8w8jwt_decode` is called. -/
def unvLay (key jwt : Bytes) : SymSt :=
  ⟨[.ptr (some (.stack 0, 0)), .ptr (some (.stack 1, 0)), .ptr (some (.stack 2, 0)), .ptr (some (.stack 3, 0)), .undef],
    [decCells (exDecRequest (-1) key jwt false false) (exDecPtrs key jwt false false), [.undef], [.undef], [.undef]], decNeed key jwt⟩

theorem unv_prefix (a now : Int) (key jwt fmt : Bytes) :
    symRun now 18 (Ex.decodeClaimsMain a key jwt fmt).body ⟨List.replicate 5 .undef, [], []⟩ =
      some (unvLay key jwt, decTail fmt 4 (.loc 2) (.loc 3) (.ret (.num 0))) := by
  kernel_rfl

/-- The state when `l8w8jwt_decode` is called. -/
def unvSt (key jwt : Bytes) : St := (unvLay key jwt).st ⟨0, []⟩ []

theorem unv_start {a : Int} {fmt : Bytes} (hk : 0 ∉ key) (hj : 0 ∉ jwt) :
    exec (mx env fuel 4) (Ex.decodeClaimsMain a key jwt fmt).body .run s
        { begin with fr := [] ++ List.replicate ((Ex.decodeClaimsMain a key jwt fmt).slots - 0) .undef } =
      exec (mx env fuel 4) (decTail fmt 4 (.loc 2) (.loc 3) (.ret (.num 0))) .run s (unvSt key jwt) :=
  (symRun_sound 18 _ _ _ _ (unv_prefix a env.now key jwt fmt) (decNeed_ok hk hj)).2

theorem unvSt_outs : OutsAt (unvSt key jwt).mem [some (.stack 1), some (.stack 2), some (.stack 3)] := by
  refine ⟨fun b hb => ?_, by simp⟩
  simp only [List.mem_cons, Option.some.injEq, List.not_mem_nil, or_false] at hb
  rcases hb with rfl | rfl | rfl <;> exact ⟨rfl, _, rfl⟩

/-- The whole run, given a run of `decode` of the model. -/
theorem unv_run {a : Int} (E : ExDecEnv env (-1)) (A : ExDecArgs fuel (-1) key jwt) (hn : NameOk name) {r : DecOut} {h' : Heap} {v : BitVec 32}
    (he : decode env (some (exDecRequest (-1) key jwt false false)) false false false s ⟨0, []⟩ = .ok (r, h')) (hr : r.rc < 2147483648)
    (hv : r.validation = some v) :
    ∃ st', runMain env fuel (Ex.decodeClaimsMain a key jwt (decFormat name)) s = .ok (.int 0, st') ∧
      st'.printed = some (decMessage name r.rc v) ∧ st'.heap = h' := by
  have hc := decode_call (nbf := false) (typ := false) (st := unvSt key jwt) E.garbage A (layMem_wf _ _ _) heap_start rfl unvSt_outs (by simp) (by simp)
  obtain ⟨mem', e, D⟩ := decode_text (d := 0) hc he
  have g1 := D.validation (.stack 1) rfl
  rw [hv] at g1
  have g2 : mem' (.ext 0) = some (cells []) := D.kept.same (.ext 0) (by simp) (by simp)
  have t := dec_tail (env := env) (fuel := fuel) (s := s) (st := unvSt key jwt) (i := 4) (a := .loc 2) (b := .loc 3)
    (va := .ptr (some (.stack 2, 0))) (vb := .ptr (some (.stack 3, 0))) (v := v) (out := []) (rest := .ret (.num 0)) hn hr rfl rfl (by omega)
    (by show 4 < 5; decide) (eval_loc rfl) (eval_loc rfl) e rfl g1 g2
  refine ⟨_, runMain_ok (f := Ex.decodeClaimsMain a key jwt (decFormat name)) rfl ((unv_start A.key.1 A.jwt.1).trans (t.trans rfl)), ?_, rfl⟩
  simp only [St.printed, dropStack, upd_same, Option.map_some, toBytes_cells, List.nil_append]

theorem unvAnswer (h : ExToken jwt n t c) (hn : NumsOk env.checknum) {rc : Nat} {v : BitVec 32} {ds : List DClaim}
    (an : Answer env (exDecRequest (-1) key jwt false false) jwt rc v ds) :
    rc = 0 ∧ v = exFlags env.now t false ∧ ds = exHeaderClaims n ++ exPayloadClaims t := by
  obtain ⟨a1, a2, a5, a6, ⟨k1, a3⟩, ⟨k2, a4⟩⟩ := h.texts hn
  have h3 := h.three
  have hseg : SegCode (-1) jwt Code.success := Or.inr (Or.inr ⟨_, _, _, h3, Or.inr ⟨a5, a6, h.sig, rfl⟩⟩)
  cases an with
  | failed hd hne =>
    exfalso
    cases hd with
    | segments h1 h2 => exact h2 (SegCode_unique h1 hseg)
    | verify _ h2 => exact h2.1 rfl
    | claims _ _ hp hx =>
      obtain ⟨rfl, rfl⟩ := parts_unique hp (Or.inr ⟨_, h3⟩)
      rcases hx with ⟨_, _, _, hx⟩ | ⟨_, _, _, hx⟩
      · rw [a1] at hx
        cases (parsed_unique a3 hx).1
      · rw [a2] at hx
        cases (parsed_unique a4 hx).1
    | done => exact hne rfl
  | good hd hp p1 p2 hb =>
    refine ⟨rfl, h.flags hn hp p1 p2, ?_⟩
    obtain ⟨rfl, rfl⟩ := parts_unique hp (Or.inr ⟨_, h3⟩)
    rw [a1] at p1
    rw [a2] at p2
    rw [(parsed_unique a3 p1).2.1, (parsed_unique a4 p2).2.1]
  | bad hd hp p1 p2 hb => exact absurd rfl hb.1

theorem views_ids {l : List Claim} {ds : List DClaim} (h : Views l ds) : 2 * ds.length ≤ (claimIds l).length := by
  induction h with
  | nil => simp
  | @cons c d l m hv _ ih =>
    obtain ⟨⟨i, z, h1, -⟩, ⟨j, y, h2, -⟩, -⟩ := hv
    simp only [claimIds, List.flatMap_cons, List.length_append, h1, h2, List.length_cons] at ih ⊢
    have : ∀ b : Block, (Ptr.ids (some b)).length = 1 := fun _ => rfl
    rw [this, this]
    omega

/-- **C85** examples/hs256/decode.c sets `alg` to -1, so that it does not check the signature: whatever its key is, for any text in
place of the signature that can be decoded at all, it prints the code 0 and only the flags of the times (unless an allocation fails).
And it never releases the claims. -/
theorem C85_unverified_false {a : Int} (E : ExDecEnv env (-1)) (hss : env.smallStack = false ∨ s.noAllocFail)
    (A : ExDecArgs fuel (-1) key jwt) (hname : NameOk name) (hn : NumsOk env.checknum)
    (h : ExToken jwt n t c) :
    ∃ rc v st', runMain env fuel (Ex.decodeClaimsMain a key jwt (decFormat name)) s = .ok (.int 0, st') ∧
      st'.printed = some (decMessage name rc v) ∧
      ((rc = 0 ∧ v = exFlags env.now t false ∧ 26 ≤ st'.heap.live.length) ∨ (¬ s.noAllocFail ∧ rc ≠ 0 ∧ v = 0xffffffff#32 ∧ st'.heap.live = [])) := by
  have hv := exDec_valid (nbf := false) (typ := false) E A
  have ht := exDec_token (nbf := false) (typ := false) A
  have tame : Tame env s (exDecRequest (-1) key jwt false false) jwt :=
    ⟨hss, exDec_key, fun h => absurd rfl h, fun h => absurd rfl h, (h.few hn).2.2, exDec_expect, E.time, Or.inl rfl⟩
  obtain ⟨r, h', he⟩ := (C47_decode_defined_partial (h := ⟨0, []⟩) E.crypto hv ht tame false false false {}).1
  have hl := C49_no_leak_partial E.crypto ht (Or.inr (h.few hn).2.1) (h.few hn).1 he
  have code : r.rc < 2147483648 ∧ (r.rc ≠ 0 → ¬ s.noAllocFail) := by
    rcases decode_returns he with ⟨-, -, -, hbad⟩ | ⟨p1, st, g1, hp, -, -, -, hb', rfl⟩
    · exfalso
      rcases hbad with hn | hn | hn
      · exact hn hv
      · cases hn
      · simp at hn
    cases hp
    have ho := outcome_of E.crypto hv ht hb'
    have hrc : (decOut false st).rc = st.rc := by unfold decOut; split <;> rfl
    rw [hrc]
    rcases outcome_lowmem exDec_expect E.time ho with ⟨h1, h2⟩ | ⟨h1, -⟩
    · rcases outcome_code_any ho with hd | ⟨hg, hd⟩
      · exact absurd (unvAnswer h hn (.failed hd h1)).1 h1
      · exact ⟨by rcases hd with hd | hd <;> rw [hd] <;> decide, fun _ => hg⟩
    · rw [h1]
      exact ⟨by decide, fun h => absurd rfl h⟩
  rcases C67_decode E.crypto hv ht exDec_expect E.time he with ⟨h1, h2, h3, -⟩ | ⟨h1, v, ds, arr, es, b, g1, g2, g3, g4, -, g6, -, g8, g9⟩
  · obtain ⟨st', e, p, rfl⟩ := unv_run (name := name) (a := a) E A hname he code.1 h2
    refine ⟨_, _, st', e, p, Or.inr ⟨code.2 h1, h1, rfl, ?_⟩⟩
    rw [outIds, h3] at hl
    exact List.perm_nil.mp hl
  · rw [g8 (Or.inr (h.length hn g1)), ← g3] at g9
    obtain ⟨st', e, p, rfl⟩ := unv_run (name := name) (a := a) E A hname he code.1 g9
    obtain ⟨-, q1, q2⟩ := unvAnswer h hn g1
    refine ⟨_, _, st', e, p, Or.inl ⟨h1, q1, ?_⟩⟩
    have := views_ids g6
    rw [g8 (Or.inr (h.length hn g1)), q2, List.length_append, show (exPayloadClaims t).length = 10 from rfl,
      exHeaderClaims, List.length_append, headerClaimsOf] at this
    have hp := hl.length_eq
    rw [outIds, g4] at hp
    simp only [arrIds, List.length_append, List.length_cons, List.length_nil] at hp this
    omega

theorem hs256_facts : Ex.hs256_decode.JWT = b64 true (exHeader "HS256") ++ 46 :: (b64 true (exPayload 1580339594) ++ 46 :: sigText Ex.hs256_decode.JWT) ∧
    b64Decode true (sigText Ex.hs256_decode.JWT) ≠ none ∧ 0 ∉ Ex.hs256_decode.KEY ∧ 0 < Ex.hs256_decode.KEY.length ∧
    Ex.hs256_decode.KEY.length < L8W8JWT_MAX_KEY_SIZE ∧ 0 ∉ Ex.hs256_decode.JWT ∧ 0 < Ex.hs256_decode.JWT.length ∧ Ex.hs256_decode.JWT.length < 1500 := by
  decide +kernel

theorem hs256_name : NameOk "hs256" := by
  unfold NameOk
  decide +kernel

/-- **C85** The program itself. What it prints does not depend on the answers of the crypto library at all. -/
theorem C85_hs256_false (E : ExDecEnv env (-1)) (hss : env.smallStack = false ∨ s.noAllocFail) (hf : 4000 ≤ fuel) (hn : NumsOk env.checknum) :
    ∃ rc v st', runMain env fuel Ex.hs256_decode s = .ok (.int 0, st') ∧ st'.printed = some (decMessage "hs256" rc v) ∧
      ((rc = 0 ∧ v = exFlags env.now 1580339594 false ∧ 26 ≤ st'.heap.live.length) ∨ (¬ s.noAllocFail ∧ rc ≠ 0 ∧ v = 0xffffffff#32 ∧ st'.heap.live = [])) := by
  obtain ⟨h1, h2, h3, h4, h5, h6, h7, h8⟩ := hs256_facts
  rw [decode_hs256_eq]
  exact C85_unverified_false E hss ⟨by omega, by decide, ⟨h3, h4, h5⟩, ⟨h6, h7, by omega⟩⟩ hs256_name hn ⟨⟨0, _, rfl⟩, by unfold TimeOk; omega, h1, h2⟩

/-- Its text with a key and a token of one's own: the signature "AAAA" is accepted while the token lasts. -/
example : ∃ st', runMain toy 20000 (Ex.decodeClaimsMain 0 (str "secret") (b64 true (exHeader "HS256") ++ 46 :: (b64 true (exPayload 1000) ++ 46 :: str "AAAA"))
    (decFormat "hs256")) calm = .ok (.int 0, st') ∧
    st'.printed = some (str "\nl8w8jwt_decode_hs256 function returned successfully (code 0).\n\nValidation result: \n0\n") ∧ st'.heap.live ≠ [] := by
  have E : ExDecEnv toy (-1) := exDecEnv_toy 1000 (by unfold NowOk; omega)
  have tok : ExToken (b64 true (exHeader "HS256") ++ 46 :: (b64 true (exPayload 1000) ++ 46 :: str "AAAA")) "HS256" 1000 (str "AAAA") :=
    ⟨⟨0, _, rfl⟩, by unfold TimeOk; omega, rfl, by decide +kernel⟩
  obtain ⟨rc, v, st', e, p, ⟨rfl, rfl, h⟩ | ⟨h, -⟩⟩ := C85_unverified_false (a := 0) (fuel := 20000) (key := str "secret") (s := calm) E (Or.inl rfl)
    ⟨by decide +kernel, by decide, by decide, by decide +kernel⟩ hs256_name numsOk_toy tok
  · refine ⟨st', e, p.trans (by decide +kernel), fun h0 => ?_⟩
    rw [h0] at h
    cases h
  · exact absurd (fun _ => rfl) h

end L8w8jwt.C
