import Verif.C.DecodeHeap
/-!
# The text of l8w8jwt_decode, l8w8jwt_decode_raw and l8w8jwt_decode_raw_no_validation
-/

namespace L8w8jwt.C
open L8w8jwt L8w8jwt.C.Src

/-! ## l8w8jwt_validate_decoding_params -/

/-- src/decode.c:761-768: without EdDSA, the algorithm is looked at. -/
def valEnd (ed : Bool) : Stmt :=
  if ed then .ret (.num 0)
  else .seq (.ite (.cmp .eq (.load (.int .i32) (.padd 1 (.loc 0) (.num 2))) (.num 13)) (.ret (.num 800)) .skip) (.ret (.num 0))

/-- The function in a build with EdDSA, and without it. -/
def valFun (ed : Bool) : CFun := if ed then l8w8jwt_validate_decoding_params else Src0.l8w8jwt_validate_decoding_params

theorem valFun_eq (ed : Bool) : valFun ed = ⟨"l8w8jwt_validate_decoding_params", 1, 1,
    .seq (.ite (.lor (.lor (.cmp .eq (.loc 0) .null) (.cmp .eq (.load .ptr (.loc 0)) .null)) (.cmp .eq (.load .ptr (.padd 1 (.loc 0) (.num 17))) .null))
      (.ret (.num 100)) .skip)
    (.seq (.ite (.lor (.lor (.cmp .eq (.load (.int .u64) (.padd 1 (.loc 0) (.num 1))) (.num 0)) (.cmp .eq (.load (.int .u64) (.padd 1 (.loc 0) (.num 18))) (.num 0)))
      (.cmp .gt (.load (.int .u64) (.padd 1 (.loc 0) (.num 18))) (.num 8192))) (.ret (.num 200)) .skip) (valEnd ed))⟩ := by
  cases ed <;> rfl

/-- src/decode.c:749-769, with NULL. -/
theorem wp_validate_params_null (env : Env) (fuel d : Nat) {s : Sched} {st : St} (hs : ∀ j, st.stk ≤ j → st.mem (.stack j) = none)
    {Q : Val → St → Prop} (hq : Q (.int (validateDecodingParams env none)) st) :
    WP ((cx env fuel (d + 1)).call "l8w8jwt_validate_decoding_params" [.ptr none]) s st Q := by
  rw [cx_fun _ _ _ (fn := valFun env.eddsa) rfl, valFun_eq]
  apply wp_runFun
  simp only [Nat.reduceSub, List.replicate, List.append_nil]
  xs []
  rw [dropStack_none hs]
  exact hq

/-- src/decode.c:749-769. -/
theorem wp_validate_params (env : Env) (fuel d : Nat) {s : Sched} {st : St}
    (hs : ∀ j, st.stk ≤ j → st.mem (.stack j) = none) {P : Blk} {q : DecParams} {w : DecPtrs}
    (hd : DecAt st.mem P q w) {Q : Val → St → Prop} (hq : Q (.int (validateDecodingParams env (some q))) st) :
    WP ((cx env fuel (d + 1)).call "l8w8jwt_validate_decoding_params" [.ptr (some (P, 0))]) s st Q := by
  have hP : cont globs st.mem P = some (decCells q w) := by rw [cont_own hd.own, hd.cells]
  rw [cx_fun _ _ _ (fn := valFun env.eddsa) rfl, valFun_eq]
  apply wp_runFun
  simp only [Nat.reduceSub, List.replicate, List.append_nil]
  have hj := hd.jwt
  have hk := hd.key
  unfold validateDecodingParams at hq
  simp only [] at hq
  xs []
  refine wp_loadV (c := cx env fuel d) (by exact hP) (by omega) (by rfl) (asTy_nul _ hj) ?_
  cases hjw : q.jwt with
  | none =>
    rw [hjw] at hj hq
    rw [show nul w.jwt = .ptr none from hj]
    xs []
    rw [dropStack_none hs]
    exact hq
  | some jm =>
  rw [hjw] at hj hq
  obtain ⟨bj, oj, lj, ej, -⟩ := hj
  rw [ej]
  xs []
  refine wp_ld (c := cx env fuel d) (by exact hP) (by omega) (by rfl) (asTy_nul _ hk) ?_
  cases hkw : q.verificationKey with
  | none =>
    rw [hkw] at hk hq
    rw [show nul w.key = .ptr none from hk]
    xs []
    rw [dropStack_none hs]
    exact hq
  | some km =>
  rw [hkw] at hk hq
  obtain ⟨bk, ok, lk, ek, -⟩ := hk
  rw [ek]
  simp only [Option.isNone_some, Bool.or_self, Bool.false_eq_true, if_false] at hq
  xs []
  refine wp_ld (c := cx env fuel d) (by exact hP) (by omega) (by rfl) (asTy_u64 _ hd.jwtLength) ?_
  by_cases h1 : q.jwtLength = 0
  · rw [if_pos (by simp [h1])] at hq
    rw [h1]
    xs []
    rw [dropStack_none hs]
    exact hq
  xs [h1]
  refine wp_ld (c := cx env fuel d) (by exact hP) (by omega) (by rfl) (asTy_u64 _ hd.keyLength) ?_
  by_cases h2 : q.verificationKeyLength = 0
  · rw [if_pos (by simp [h2])] at hq
    rw [h2]
    xs []
    rw [dropStack_none hs]
    exact hq
  xs [h2]
  refine wp_ld (c := cx env fuel d) (by exact hP) (by omega) (by rfl) (asTy_u64 _ hd.keyLength) ?_
  by_cases h3 : 8192 < q.verificationKeyLength
  · rw [if_pos (by simp [L8W8JWT_MAX_KEY_SIZE, h3])] at hq
    xs [show (8192 : Int) < (q.verificationKeyLength : Int) by omega]
    rw [dropStack_none hs]
    exact hq
  rw [if_neg (by simp [L8W8JWT_MAX_KEY_SIZE, h1, h2]; omega)] at hq
  xs [show ¬ (8192 : Int) < (q.verificationKeyLength : Int) by omega]
  unfold valEnd
  cases he : env.eddsa with
  | true =>
    simp only [he, Bool.not_true, Bool.false_and, Bool.false_eq_true, if_false] at hq
    simp only [if_true]
    xs []
    rw [dropStack_none hs]
    exact hq
  | false =>
    simp only [he, Bool.not_false, Bool.true_and] at hq
    simp only [Bool.false_eq_true, if_false]
    xs []
    refine wp_ld (c := cx env fuel d) (by exact hP) (by omega) (by rfl) (asTy_i32 _ hd.alg.1 hd.alg.2) ?_
    by_cases h4 : q.alg = 13
    · rw [if_pos (by simp [L8W8JWT_ALG_ED25519, h4])] at hq
      xs [h4]
      rw [dropStack_none hs]
      exact hq
    · rw [if_neg (by simp [L8W8JWT_ALG_ED25519, h4])] at hq
      xs [h4]
      rw [dropStack_none hs]
      exact hq

/-! ## Strings that may be NULL -/

theorem strAt_pts {env : Env} {s : Sched} {st : St} {v : Val} {m : Option Bytes} (h : Pts globs st.mem v m) :
    strAt (lctx env) v s st = .ok (m, st) := by
  cases m with
  | none => cases h; rfl
  | some b =>
    obtain ⟨B, o, l, rfl, hB, ho, hb⟩ := h
    simp only [strAt, bytesAt, X.bind_apply, obj_cont (c := lctx env) hB]
    rw [if_neg (by omega), X.pure_apply]
    simp only [Int.toNat_natCast]
    rw [show toBytes (l.drop o) = b from hb]
    rfl

theorem strAt_nul {env : Env} {s : Sched} {st : St} {v : Val} {m : Option Bytes} (h : Pts globs st.mem (nul v) m) :
    strAt (lctx env) v s st = .ok (m, st) := by
  unfold nul at h
  split at h
  · cases m with
    | none => rfl
    | some b => obtain ⟨_, _, _, e, -⟩ := h; cases e
  · exact strAt_pts h

/-! ## The buffer of claims -/

/-- `chillbuff_init`, if memory is short. -/
theorem wp_initFail (env : Env) (fuel d : Nat) {b : Blk} {cap es g : Int} {s : Sched} {st : St} {l : List Val}
    {Q : Val → St → Prop} (ho : b.own = true) (hb : st.mem b = some l) (hl : l.length = 5) (hf : s.failAlloc st.heap.tick = true)
    (hq : Q (.int 1) { st with heap := { st.heap with tick := st.heap.tick + 1 },
                               mem := upd st.mem b (some [.ptr none, .int 0, .int 0, .int 0, .int 0]) }) :
    WP ((cx env fuel d).call "chillbuff_init" [.ptr (some (b, 0)), .int cap, .int es, .int g]) s st Q := by
  rw [cx_lib _ _ _ rfl]
  show WP (xBufInit (lctx env) (.ptr (some (b, 0))) cap es g) s st Q
  unfold xBufInit
  rw [wp_bind]
  unfold xAlloc
  refine ⟨_, _, if_pos hf, ?_⟩
  simp only
  rw [wp_bind]
  refine wp_writeCells_own ho hb (by rw [hl]; rfl) ?_
  rw [wp_pure]
  exact hq

theorem flat_get {cs : List Claim} {i j : Nat} {c : Claim} (h : cs[i]? = some c) (hj : j < 5) (rest : List Val) :
    (cs.flatMap recCells ++ rest)[5 * i + j]? = (recCells c)[j]? := by
  induction cs generalizing i with
  | nil => cases h
  | cons x t ih =>
    have hl : (recCells x).length = 5 := rfl
    rw [List.flatMap_cons, List.append_assoc]
    cases i with
    | zero =>
      cases h
      rw [List.getElem?_append_left (by omega)]
      simp
    | succ i =>
      rw [List.getElem?_append_right (by omega), hl, show 5 * (i + 1) + j - 5 = 5 * i + j by omega]
      exact ih (by simpa using h)

theorem flat_length (cs : List Claim) : (cs.flatMap recCells).length = 5 * cs.length := by
  induction cs with
  | nil => rfl
  | cons x t ih =>
    rw [List.flatMap_cons, List.length_append, ih]
    simp [recCells]
    omega

theorem pts_block {mem : Blk → Option (List Val)} {p : Ptr} (h : ∀ b, p = some b → mem (.heap b.id) = some (cells b.mem)) :
    Pts globs mem (ptrVal p) p.bytes := by
  cases p with
  | none => rfl
  | some b => exact ⟨.heap b.id, 0, cells b.mem, rfl, (cont_own rfl).trans (h b rfl), Nat.zero_le _, by rw [bytesFrom_cells]; rfl⟩

theorem held_claimsAt {mem : Blk → Option (List Val)} {id tick : Nat} {cs : List Claim} {rest : List Val}
    (hm : mem (.heap id) = some (cs.flatMap recCells ++ rest)) (hh : Held mem id tick cs) : ClaimsAt mem (.ptr (some (.heap id, 0))) (some cs) := by
  refine ⟨.heap id, 0, _, rfl, (cont_own rfl).trans hm, ?_, ?_⟩
  · rw [List.length_append, flat_length]; omega
  · intro i c hc
    obtain ⟨a1, a2, a3, a4, a5⟩ := hh c (List.mem_of_getElem? hc)
    rw [Nat.zero_add]
    refine ⟨ptrVal c.key, ptrVal c.value, ?_, ?_, ?_, ?_, ?_, pts_block fun b hb => (a5 b (Or.inl hb)).1, pts_block fun b hb => (a5 b (Or.inr hb)).1, a1, a2,
      by omega, by omega⟩
    · exact flat_get (j := 0) hc (by omega) rest
    · exact flat_get (j := 1) hc (by omega) rest
    · exact flat_get (j := 2) hc (by omega) rest
    · exact flat_get (j := 3) hc (by omega) rest
    · exact flat_get (j := 4) hc (by omega) rest

theorem held_owned {mem : Blk → Option (List Val)} {a : ClaimArr} {tick : Nat} (h : ∀ b, a.blk = some b → (∃ rest, mem (.heap b.id) =
    some (a.items.flatMap recCells ++ rest)) ∧ Held mem b.id tick a.items) : OwnedAt mem a := by
  intro b hb
  obtain ⟨⟨rest, hm⟩, hh⟩ := h b hb
  refine ⟨_, hm, by rw [List.length_append, flat_length]; omega, ?_⟩
  intro i c hc
  obtain ⟨a1, a2, a3, a4, a5⟩ := hh c (List.mem_of_getElem? hc)
  refine ⟨flat_get (j := 0) hc (by omega) rest, flat_get (j := 1) hc (by omega) rest, flat_get (j := 2) hc (by omega) rest,
    flat_get (j := 3) hc (by omega) rest, ?_, ?_, a1, a2⟩
  · intro b hb
    exact ⟨_, (a5 b (Or.inl hb)).1, by rw [cells_length]; exact Nat.le_refl _⟩
  · intro b hb
    exact ⟨_, (a5 b (Or.inr hb)).1, by rw [cells_length]; exact Nat.le_refl _⟩

/-! ## The three segments -/

theorem segMem_at {mem : Blk → Option (List Val)} {i n : Nat} {p : Ptr} :
    segMem mem i p n (.stack i) = some [ptrVal p] ∧ segMem mem i p n (.stack (i + 1)) = some [.int n] ∧
      ∀ b, p = some b → segMem mem i p n (.heap b.id) = some (cells b.mem) := by
  unfold segMem
  refine ⟨by rw [upd_ne _ _ (by simp), upd_same], by rw [upd_same], ?_⟩
  rintro b rfl
  rw [upd_ne _ _ (by simp), upd_ne _ _ (by simp)]
  exact upd_same _ _ _

/-- The variables from number `i` on and the blocks after `l8w8jwt_decode_segments`. -/
structure SegsAt (mem : Blk → Option (List Val)) (i : Nat) (r : Segs) : Prop where
  s0 : mem (.stack i) = some [ptrVal r.header]
  s1 : mem (.stack (i + 1)) = some [.int r.headerLength]
  s2 : mem (.stack (i + 2)) = some [ptrVal r.payload]
  s3 : mem (.stack (i + 3)) = some [.int r.payloadLength]
  s4 : mem (.stack (i + 4)) = some [ptrVal r.signature]
  s5 : mem (.stack (i + 5)) = some [.int r.signatureLength]
  hb : ∀ b, r.header = some b → mem (.heap b.id) = some (cells b.mem)
  pb : ∀ b, r.payload = some b → mem (.heap b.id) = some (cells b.mem)
  sb : ∀ b, r.signature = some b → mem (.heap b.id) = some (cells b.mem)

theorem segsMem_at {mem : Blk → Option (List Val)} {i N : Nat} {r : Segs} {h h' : Heap} (hk : SegsOk h h' N r) : SegsAt (segsMem mem i r) i r := by
  unfold segsMem
  refine ⟨?_, ?_, ?_, ?_, segMem_at.1, segMem_at.2.1, ?_, ?_, segMem_at.2.2⟩
  · rw [segMem_stack (by omega) (by omega), segMem_stack (by omega) (by omega)]; exact segMem_at.1
  · rw [segMem_stack (by omega) (by omega), segMem_stack (by omega) (by omega)]; exact segMem_at.2.1
  · rw [segMem_stack (by omega) (by omega)]; exact segMem_at.1
  · rw [segMem_stack (by omega) (by omega)]; exact segMem_at.2.1
  · intro b hb
    rw [segMem_other (by simp) (by simp) fun x hx => by simpa using hk.hs b x hb hx,
      segMem_other (by simp) (by simp) fun x hx => by simpa using hk.hp b x hb hx]
    exact segMem_at.2.2 b hb
  · intro b hb
    rw [segMem_other (by simp) (by simp) fun x hx => by simpa using hk.ps b x hb hx]
    exact segMem_at.2.2 b hb

theorem segsMem_other {mem : Blk → Option (List Val)} {i N : Nat} {r : Segs} {h h' : Heap} (hk : SegsOk h h' N r) {x : Blk}
    (h1 : ∀ j, i ≤ j → j ≤ i + 5 → x ≠ .stack j) (h2 : ∀ j, h.tick ≤ j → j < h'.tick → x ≠ .heap j) : segsMem mem i r x = mem x := by
  unfold segsMem
  rw [segMem_other (h1 _ (by omega) (by omega)) (h1 _ (by omega) (by omega)) fun b hb => h2 _ (hk.signature b hb).1 (hk.signature b hb).2.1,
    segMem_other (h1 _ (by omega) (by omega)) (h1 _ (by omega) (by omega)) fun b hb => h2 _ (hk.payload b hb).1 (hk.payload b hb).2.1,
    segMem_other (h1 _ (by omega) (by omega)) (h1 _ (by omega) (by omega)) fun b hb => h2 _ (hk.header b hb).1 (hk.header b hb).2.1]

theorem SegsAt.frame {mem mem' : Blk → Option (List Val)} {i : Nat} {r : Segs} (h : SegsAt mem i r)
    (hs : ∀ j, i ≤ j → j ≤ i + 5 → mem' (.stack j) = mem (.stack j))
    (hh : ∀ b, (r.header = some b ∨ r.payload = some b ∨ r.signature = some b) → mem' (.heap b.id) = mem (.heap b.id)) : SegsAt mem' i r where
  s0 := (hs _ (by omega) (by omega)).trans h.s0
  s1 := (hs _ (by omega) (by omega)).trans h.s1
  s2 := (hs _ (by omega) (by omega)).trans h.s2
  s3 := (hs _ (by omega) (by omega)).trans h.s3
  s4 := (hs _ (by omega) (by omega)).trans h.s4
  s5 := (hs _ (by omega) (by omega)).trans h.s5
  hb b hb := (hh b (Or.inl hb)).trans (h.hb b hb)
  pb b hb := (hh b (Or.inr (Or.inl hb))).trans (h.pb b hb)
  sb b hb := (hh b (Or.inr (Or.inr hb))).trans (h.sb b hb)

/-- A variable that the claims do not depend on is changed before and after. -/
theorem PInv.both {m0 : Blk → Option (List Val)} {kb id k0 t0 : Nat} {buf : List Claim} {heap : Heap} {mem : Blk → Option (List Val)} {stk : Nat}
    (h : PInv m0 kb id k0 t0 buf heap mem stk) {j : Nat} (hj : j < k0) (hkb : j ≠ kb) (x : List Val) :
    PInv (upd m0 (.stack j) (some x)) kb id k0 t0 buf heap (upd mem (.stack j) (some x)) stk where
  bufc := h.bufc.frame (by rw [upd_ne _ _ (by simp; omega)]) (by rw [upd_ne _ _ (by simp)])
  held := h.held.frame (fun i _ _ => by rw [upd_ne _ _ (by simp)]) (Nat.le_refl _)
  stack i hi := by have := h.hk; rw [upd_ne _ _ (by simp; omega)]; exact h.stack i hi
  free i hi := by rw [upd_ne _ _ (by simp)]; exact h.free i hi
  frame y h1 h2 h3 h4 := by
    simp only [upd]
    split
    · rfl
    · exact h.frame y h1 h2 h3 h4
  hk := h.hk
  ht := h.ht
  hkb := h.hkb
  hid := h.hid

/-! ## From `chillbuff_init` to the label -/

/-- Memory at the label `exit`: `k` is the number of the first variable of the function, `t0` of the first block that it allocates, `m0` memory
before. -/
structure AtExit (m0 : Blk → Option (List Val)) (t0 k N : Nat) (D : DecState) (h : Heap) (mem : Blk → Option (List Val)) : Prop where
  val : D.rc = 0 → mem (.stack k) = some [.int D.validation.toNat]
  segs : SegsAt mem (k + 1) D.segs
  segIds : ∀ b, (D.segs.header = some b ∨ D.segs.payload = some b ∨ D.segs.signature = some b) →
    t0 ≤ b.id ∧ b.id < h.tick ∧ (∀ a, D.claims.blk = some a → a.id ≠ b.id) ∧
      ∀ c ∈ D.claims.items, ∀ a, (c.key = some a ∨ c.value = some a) → a.id ≠ b.id
  hp : ∀ a b, D.segs.header = some a → D.segs.payload = some b → a.id ≠ b.id
  hs : ∀ a b, D.segs.header = some a → D.segs.signature = some b → a.id ≠ b.id
  ps : ∀ a b, D.segs.payload = some a → D.segs.signature = some b → a.id ≠ b.id
  lens : D.segs.headerLength < 18446744073709551616 ∧ D.segs.payloadLength < 18446744073709551616 ∧
    D.segs.signatureLength < 18446744073709551616
  buf : ∃ r, mem (.stack (k + 7)) = some (ptrVal D.claims.blk :: .int D.claims.items.length :: r)
  arr : ∀ b, D.claims.blk = some b → t0 ≤ b.id ∧ b.id < h.tick ∧ (∃ rest, mem (.heap b.id) = some (D.claims.items.flatMap recCells ++ rest)) ∧
    Held mem b.id h.tick D.claims.items
  ids : ∀ c ∈ D.claims.items, ∀ a, (c.key = some a ∨ c.value = some a) → t0 ≤ a.id
  null : D.claims.blk = none → D.claims.items = []
  stack : ∀ j, k + 8 ≤ j → mem (.stack j) = none
  free : ∀ j, h.tick ≤ j → mem (.heap j) = none
  frame : ∀ x, (∀ j, k ≤ j → x ≠ .stack j) → (∀ j, t0 ≤ j → x ≠ .heap j) → mem x = m0 x
  wf : HeapWf h
  size : D.claims.items.length ≤ N

theorem AtExit.of {m0 mB mem : Blk → Option (List Val)} {t0 k N n t2 : Nat} {buf : List Claim} {h h1 h2 : Heap} {r : Segs} {rc : Nat} {v : VRes}
    {blk : Block} (hP : PInv mB (k + 7) blk.id (k + 8) t2 buf h mem (k + 8)) (hS : SegsAt mB (k + 1) r) (hk : SegsOk h1 h2 n r)
    (hn : n < 18446744073709551616) (hb : ∀ b, (r.header = some b ∨ r.payload = some b ∨ r.signature = some b) → t0 ≤ b.id ∧ b.id < t2 ∧ blk.id ≠ b.id)
    (hi : ∀ c ∈ buf, ∀ a, (c.key = some a ∨ c.value = some a) → t2 ≤ a.id) (hid : t0 ≤ blk.id)
    (hf : ∀ x, (∀ j, k ≤ j → x ≠ .stack j) → (∀ j, t0 ≤ j → x ≠ .heap j) → mB x = m0 x) (hw : HeapWf h)
    (hv : rc = 0 → mB (.stack k) = some [.int v.toNat]) (hl : buf.length ≤ N) : AtExit m0 t0 k N ⟨rc, r, ⟨some blk, buf⟩, v⟩ h mem where
  val h0 := by
    rw [hP.frame _ (by simp) (by simp) (by intro j hj; simp; omega) (by simp)]
    exact hv h0
  segs := by
    refine hS.frame ?_ ?_
    · intro j h1 h2
      exact hP.frame _ (by simp; omega) (by simp) (by intro j hj; simp; omega) (by simp)
    · intro b h1
      have := hb b h1
      exact hP.frame _ (by simp) (by simp; omega) (by simp) (by intro j hj; simp; omega)
  segIds b h1 := by
    have k1 := hb b h1
    have := hP.ht
    refine ⟨k1.1, by omega, ?_, ?_⟩
    · rintro a ⟨⟩
      exact k1.2.2
    · intro c hc a ha
      have := hi c hc a ha
      omega
  hp := hk.hp
  hs := hk.hs
  ps := hk.ps
  lens := ⟨by have := hk.hl; simp; omega, by have := hk.pl; simp; omega, by have := hk.sl; simp; omega⟩
  buf := by
    obtain ⟨-, -, -, ⟨g, e⟩, -⟩ := hP.bufc
    exact ⟨_, e⟩
  arr := by
    rintro b ⟨⟩
    obtain ⟨-, -, -, -, e⟩ := hP.bufc
    exact ⟨hid, by have := hP.hid; have := hP.ht; omega, e, hP.held⟩
  ids c hc a ha := by
    have := hi c hc a ha
    have := hP.hid
    omega
  null h := by cases h
  stack := hP.stack
  free := hP.free
  frame x h1 h2 := by
    have := hP.hid
    rw [hP.frame x (h1 _ (by omega)) (h2 _ hid) (fun j hj => h1 j (by omega)) (fun j hj => h2 j (by omega))]
    exact hf x h1 h2
  wf := hw
  size := hl

theorem dropStack_ne (k : Nat) (m : Blk → Option (List Val)) {x : Blk} (h : ∀ j, k ≤ j → x ≠ .stack j) : dropStack k m x = m x := by
  cases x <;> simp only [dropStack]
  rename_i j
  rw [if_neg fun hj => h j hj rfl]

theorem dropStack_lt (k j : Nat) (m : Blk → Option (List Val)) (h : k ≤ j) : dropStack k m (.stack j) = none := by
  simp [dropStack, h]

end L8w8jwt.C
