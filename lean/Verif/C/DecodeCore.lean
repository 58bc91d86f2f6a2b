import Verif.C.VerifyProof
/-!
# The part that l8w8jwt_decode and l8w8jwt_decode_raw have in common

src/decode.c:802-845 and 897-934: the two differ in the numbers of the variables only.
-/

namespace L8w8jwt.C
open L8w8jwt L8w8jwt.C.Src

/-- `chillbuff_init(&claims, 16, sizeof(struct l8w8jwt_claim), CHILLBUFF_GROW_DUPLICATIVE)` -/
def dInit (b : Nat) : Stmt :=
  .exp (.set (b + 1) (.call "chillbuff_init" (.cons (.loc (b + 8)) (.cons (.num 16) (.cons (.num 5) (.cons (.num 1) .nil))))))

/-- `if (r != 0) { r = code; goto exit; }` -/
def dFail (b : Nat) (code : Int) : Stmt :=
  .ite (.cmp .ne (.loc (b + 1)) (.num 0)) (.seq (.exp (.set (b + 1) (.num code))) (.goto "exit")) .skip

/-- `if (r != 0) goto exit;` -/
def dFail0 (b : Nat) : Stmt := .ite (.cmp .ne (.loc (b + 1)) (.num 0)) (.goto "exit") .skip

def dSegs (b : Nat) : Stmt :=
  .exp (.set (b + 1) (.call "l8w8jwt_decode_segments" (.cons (.loc 0) (.cons (.loc (b + 2)) (.cons (.loc (b + 3)) (.cons (.loc (b + 4))
    (.cons (.loc (b + 5)) (.cons (.loc (b + 6)) (.cons (.loc (b + 7)) .nil)))))))))

def dVer (b : Nat) : Stmt :=
  .exp (.set (b + 1) (.call "l8w8jwt_verify_signature" (.cons (.loc 0) (.cons (.loc b) (.cons (.load .ptr (.loc (b + 6)))
    (.cons (.load (.int .u64) (.loc (b + 7))) .nil))))))

def dParse (b i : Nat) : Stmt :=
  .exp (.set (b + 1) (.call "l8w8jwt_parse_claims" (.cons (.loc (b + 8)) (.cons (.load .ptr (.loc (b + i)))
    (.cons (.load (.int .u64) (.loc (b + (i + 1)))) .nil)))))

def dVal (b : Nat) : Stmt := .exp (.call "l8w8jwt_validate_claims" (.cons (.loc 0) (.cons (.loc (b + 8)) (.cons (.loc b) .nil))))

/-- All of it, followed by `E`. -/
def dCore (b : Nat) (E : Stmt) : Stmt :=
  .seq (dInit b) (.seq (dFail b 300) (.seq (dSegs b) (.seq (dFail0 b) (.seq (dVer b) (.seq (dFail0 b) (.seq (dParse b 2) (.seq (dFail b 600)
    (.seq (dParse b 4) (.seq (dFail b 600) (.seq (dVal b) (.seq (.exp (.set (b + 1) (.num 0))) E)))))))))))

/-- The variables: the first one is `validation_res`, then `r`, the segments and the buffer; `k` is the number of the first object. -/
structure DFr (b k : Nat) (P : Blk) (fr : List Val) : Prop where
  len : b + 8 < fr.length
  hb : 0 < b
  p : fr.getD 0 .undef = .ptr (some (P, 0))
  v : fr.getD b .undef = .ptr (some (.stack k, 0))
  g2 : fr.getD (b + 2) .undef = .ptr (some (.stack (k + 1), 0))
  g3 : fr.getD (b + 3) .undef = .ptr (some (.stack (k + 2), 0))
  g4 : fr.getD (b + 4) .undef = .ptr (some (.stack (k + 3), 0))
  g5 : fr.getD (b + 5) .undef = .ptr (some (.stack (k + 4), 0))
  g6 : fr.getD (b + 6) .undef = .ptr (some (.stack (k + 5), 0))
  g7 : fr.getD (b + 7) .undef = .ptr (some (.stack (k + 6), 0))
  g8 : fr.getD (b + 8) .undef = .ptr (some (.stack (k + 7), 0))

theorem DFr.set {b k : Nat} {P : Blk} {fr : List Val} (h : DFr b k P fr) (x : Val) : DFr b k P (fr.set (b + 1) x) where
  len := by simp [h.len]
  hb := h.hb
  p := by have := h.hb; rw [getD_set_ne _ _ _ _ _ (by omega)]; exact h.p
  v := by rw [getD_set_ne _ _ _ _ _ (by omega)]; exact h.v
  g2 := by rw [getD_set_ne _ _ _ _ _ (by omega)]; exact h.g2
  g3 := by rw [getD_set_ne _ _ _ _ _ (by omega)]; exact h.g3
  g4 := by rw [getD_set_ne _ _ _ _ _ (by omega)]; exact h.g4
  g5 := by rw [getD_set_ne _ _ _ _ _ (by omega)]; exact h.g5
  g6 := by rw [getD_set_ne _ _ _ _ _ (by omega)]; exact h.g6
  g7 := by rw [getD_set_ne _ _ _ _ _ (by omega)]; exact h.g7
  g8 := by rw [getD_set_ne _ _ _ _ _ (by omega)]; exact h.g8

section
variable {c : Ctx} {s : Sched} {b : Nat} {fr : List Val} {heap : Heap} {mem : Blk → Option (List Val)} {stk : Nat} {Q : Ctl → St → Prop}

theorem wp_dFail {code : Int} {rc : Nat} (hb : b + 1 < fr.length)
    (h0 : rc = 0 → Q (.next .run) ⟨fr.set (b + 1) (.int rc), heap, mem, stk⟩)
    (h1 : rc ≠ 0 → Q (.next (.label "exit")) ⟨fr.set (b + 1) (.int code), heap, mem, stk⟩) :
    WP (exec c (dFail b code) .run) s ⟨fr.set (b + 1) (.int rc), heap, mem, stk⟩ Q := by
  have hg : (fr.set (b + 1) (.int rc)).getD (b + 1) .undef = .int rc := getD_set_same _ _ _ _ hb
  unfold dFail
  by_cases h : rc = 0
  · subst h
    xs [hg]
    exact h0 rfl
  · have h' : ¬ (rc : Int) = 0 := by omega
    xs [hg, h']
    have := h1 h
    simpa only [List.set_set] using this

theorem wp_dFail0 {rc : Nat} (hb : b + 1 < fr.length)
    (h0 : rc = 0 → Q (.next .run) ⟨fr.set (b + 1) (.int rc), heap, mem, stk⟩)
    (h1 : rc ≠ 0 → Q (.next (.label "exit")) ⟨fr.set (b + 1) (.int rc), heap, mem, stk⟩) :
    WP (exec c (dFail0 b) .run) s ⟨fr.set (b + 1) (.int rc), heap, mem, stk⟩ Q := by
  have hg : (fr.set (b + 1) (.int rc)).getD (b + 1) .undef = .int rc := getD_set_same _ _ _ _ hb
  unfold dFail0
  by_cases h : rc = 0
  · subst h
    xs [hg]
    exact h0 rfl
  · have h' : ¬ (rc : Int) = 0 := by omega
    xs [hg, h']
    exact h1 h

end

theorem wp_dParse (env : Env) (fuel d : Nat) {s : Sched} {b k i j id : Nat} {P : Blk} {fr : List Val} {heap h' : Heap} {mem : Blk → Option (List Val)}
    (hf : DFr b k P fr) (hi : fr.getD (b + i) .undef = .ptr (some (.stack j, 0))) (hi1 : fr.getD (b + (i + 1)) .undef = .ptr (some (.stack (j + 1), 0)))
    {buf : List Claim} (hP : PInv mem (k + 7) id (k + 8) heap.tick buf heap mem (k + 8)) {p : Ptr} {n : Nat} (hp : mem (.stack j) = some [ptrVal p])
    (hn : mem (.stack (j + 1)) = some [.int n]) (hb : ∀ b, p = some b → mem (.heap b.id) = some (cells b.mem) ∧ b.id ≠ id ∧ b.id < heap.tick)
    (hn2 : n < 2147483648) (hg : ∀ i, -2147483648 ≤ (env.garbage i).end_ ∧ (env.garbage i).end_ < 2147483648)
    (hfu : n + 2 < fuel) {rc : Nat} {buf' : List Claim} (hr : parseClaims env buf p n s heap = .ok ((rc, buf'), h')) {Q : Ctl → St → Prop}
    (hq : ∀ mem', PInv mem (k + 7) id (k + 8) heap.tick buf' h' mem' (k + 8) → Q (.next .run) ⟨fr.set (b + 1) (.int rc), h', mem', k + 8⟩) :
    WP (exec (cx env fuel (d + 3)) (dParse b i) .run) s ⟨fr, heap, mem, k + 8⟩ Q := by
  unfold dParse
  xs []
  rw [hi]
  refine wp_loadV (c := cx env fuel (d + 3)) (l := [ptrVal p]) (by exact hp) (by omega) (by rfl) (asTy_ptrVal _ _) ?_
  xs []
  rw [hi1]
  refine wp_loadV (c := cx env fuel (d + 3)) (l := [.int n]) (by exact hn) (by omega) (by rfl) (asTy_u64 _ (by omega)) ?_
  xs []
  rw [hf.g8]
  cases p with
  | none => cases hr
  | some x =>
    obtain ⟨b1, b2, b3⟩ := hb x rfl
    refine wp_parse_claims env fuel d (J := .heap x.id) (oj := 0) (lj := cells x.mem) (jm := x.mem) (json := some x) hP
      ⟨(cont_own rfl).trans b1, by simp, by simpa using b2, by simp, by intro j hj; simp only at hj; simp; omega⟩ (by rw [bytesFrom_cells]; rfl) (Nat.zero_le _) rfl hn2 hg hfu hr ?_
    intro mem' hP'
    xs []
    exact hq mem' hP'

theorem validateDec_key {env : Env} {q : DecParams} (h : validateDecodingParams env (some q) = 0) : 0 < q.verificationKeyLength := by
  unfold validateDecodingParams at h
  simp only at h
  split at h
  · cases h
  · split at h
    · cases h
    · rename_i _ h1
      simp at h1
      omega

theorem wp_core (env : Env) (fuel d : Nat) {s : Sched} {b k : Nat} {P : Blk} {fr : List Val} {heap : Heap} {m0 : Blk → Option (List Val)}
    (hf : DFr b k P fr) (hw : Wf ⟨fr, heap, m0, k + 8⟩) (hwf : HeapWf heap) {q : DecParams} {w : DecPtrs} (hd : DecAt m0 P q w)
    (hu : ∀ b, Uses P w b → ∀ j, k ≤ j → b ≠ .stack j)
    (v0 : m0 (.stack k) = some [.int 0]) (s0 : m0 (.stack (k + 1)) = some [.ptr none]) (s1 : m0 (.stack (k + 2)) = some [.int 0])
    (s2 : m0 (.stack (k + 3)) = some [.ptr none]) (s3 : m0 (.stack (k + 4)) = some [.int 0])
    (s4 : m0 (.stack (k + 5)) = some [.ptr none]) (s5 : m0 (.stack (k + 6)) = some [.int 0])
    {lb : List Val} (hlb : m0 (.stack (k + 7)) = some lb) (hl5 : lb.length = 5)
    {m : Bytes} (hj : q.jwt = some m) (hfu : 2 * m.length + 100 < fuel) (hml : m.length + 16 < 2147483648) (hft : q.validateTypLength < fuel)
    (hg : ∀ i, -2147483648 ≤ (env.garbage i).end_ ∧ (env.garbage i).end_ < 2147483648)
    (hkl : 0 < q.verificationKeyLength)
    {D : DecState} {h' : Heap} (hr : decodeBody env q s heap = .ok (D, h')) {E : Stmt} {Q : Ctl → St → Prop}
    (hE0 : D.rc = 0 → ∀ mem', AtExit m0 heap.tick k (2 * (m.length + 16)) D h' mem' →
      WP (exec (cx env fuel (d + 3)) E .run) s ⟨fr.set (b + 1) (.int 0), h', mem', k + 8⟩ Q)
    (hE1 : D.rc ≠ 0 → ∀ mem', AtExit m0 heap.tick k (2 * (m.length + 16)) D h' mem' →
      WP (exec (cx env fuel (d + 3)) E (.label "exit")) s ⟨fr.set (b + 1) (.int D.rc), h', mem', k + 8⟩ Q) :
    WP (exec (cx env fuel (d + 3)) (dCore b E) .run) s ⟨fr, heap, m0, k + 8⟩ Q := by
  have hlen : b + 1 < fr.length := by have := hf.len; omega
  unfold decodeBody at hr
  obtain ⟨blk, g1, ha, hr2⟩ := M.bind_inv hr
  have hTB := Tidy.alloc [] _ _ _ _ ha hwf
  unfold dCore
  xs []
  unfold dInit
  xs []
  rw [hf.g8]
  by_cases hfa : s.failAlloc heap.tick = true
  · refine wp_initFail env fuel _ rfl (by exact hlb) hl5 hfa ?_
    unfold alloc at ha
    rw [if_pos hfa] at ha
    cases ha
    cases hr2
    xs []
    refine wp_dFail (rc := 1) hlen (fun h => by cases h) fun _ => ?_
    simp only [dSegs, dFail0, dVer, dParse, dFail, dVal]
    xs []
    refine hE1 (by simp [L8W8JWT_OUT_OF_MEM]) _ ?_
    have n7 : ∀ x, x ≠ .stack (k + 7) → upd m0 (.stack (k + 7)) (some [.ptr none, .int 0, .int 0, .int 0, .int 0]) x = m0 x := fun x hx => upd_ne _ _ hx
    exact {
      val := fun h => by cases h
      segs := ⟨(n7 _ (by simp)).trans s0, (n7 _ (by simp)).trans s1, (n7 _ (by simp)).trans s2, (n7 _ (by simp)).trans s3, (n7 _ (by simp)).trans s4,
        (n7 _ (by simp)).trans s5, (fun _ h => by cases h), (fun _ h => by cases h), (fun _ h => by cases h)⟩
      segIds := fun b h => by rcases h with h | h | h <;> cases h
      hp := fun _ _ h => by cases h
      hs := fun _ _ h => by cases h
      ps := fun _ _ h => by cases h
      lens := ⟨by simp, by simp, by simp⟩
      buf := ⟨_, upd_same _ _ _⟩
      arr := fun _ h => by cases h
      ids := fun _ h => by cases h
      null := fun _ => rfl
      stack := fun j hj => (n7 _ (by simp; omega)).trans (hw.stack j hj)
      free := fun j hj => (n7 _ (by simp)).trans (hw.heap j (by simp at hj ⊢; omega))
      frame := fun x h1 _ => n7 x (h1 _ (by omega))
      wf := hTB.1
      size := by simp }
  have hfa' : s.failAlloc heap.tick = false := by simpa using hfa
  unfold alloc at ha
  rw [if_neg hfa] at ha
  cases ha
  simp only at hr2
  refine wp_init env fuel _ (l := lb) (cap := 16) (es := 5) (g := 1) rfl (by exact hlb) hl5 (by simp) ?_
  simp only [hfa', Bool.false_eq_true, if_false]
  intro m1 hB hF
  have f1 : ∀ x, x ≠ .stack (k + 7) → x ≠ .heap heap.tick → m1 x = m0 x := hF
  xs []
  refine wp_dFail (rc := 0) hlen (fun _ => ?_) fun h => absurd rfl h
  xs []
  have hf1 := hf.set (.int ((0 : Nat) : Int))
  obtain ⟨S, h2, hseg, hr3⟩ := M.bind_inv hr2
  have hk := segs_ok hj hseg
  have hT2 := tidy_decodeSegments q _ _ _ _ hseg hTB.1
  have hd1 : DecAt m1 P q w := hd.frame fun x hx => by
    obtain ⟨lx, hlx⟩ := hd.known hx
    exact f1 x (hu x hx _ (by omega)) ((hw.old hlx).2 _ (Nat.le_refl _))
  unfold dSegs
  xs []
  rw [hf1.p, hf1.g2, hf1.g3, hf1.g4, hf1.g5, hf1.g6, hf1.g7]
  rw [cx_fun _ _ _ (fn := l8w8jwt_decode_segments) rfl]
  have hw1 : Wf ⟨fr.set (b + 1) (.int ((0 : Nat) : Int)), { tick := heap.tick + 1, live := heap.tick :: heap.live }, m1, k + 8⟩ :=
    ⟨fun j hj => by
      have hj : k + 8 ≤ j := hj
      exact (f1 _ (by simp; omega) (by simp)).trans (hw.stack j hj), fun j hj => by
      have hj : heap.tick + 1 ≤ j := hj
      exact (f1 _ (by simp) (by simp; omega)).trans (hw.heap j (by simp; omega))⟩
  refine wp_decode_segments env fuel d hw1 hd1 (i := k + 1) (fun x hx j hj => hu x hx j (by omega)) ?_ ?_ ?_ ?_ ?_ ?_ ?_ hseg ?_
  · exact (f1 _ (by simp) (by simp)).trans s0
  · exact (f1 _ (by simp) (by simp)).trans s1
  · exact (f1 _ (by simp) (by simp)).trans s2
  · exact (f1 _ (by simp) (by simp)).trans s3
  · exact (f1 _ (by simp) (by simp)).trans s4
  · exact (f1 _ (by simp) (by simp)).trans s5
  · intro m' hm'
    rw [hj] at hm'
    cases hm'
    omega
  obtain ⟨m2, hm2⟩ : ∃ m2, m2 = segsMem m1 (k + 1) S := ⟨_, rfl⟩
  have hS2 : SegsAt m2 (k + 1) S := hm2 ▸ segsMem_at hk
  have f2 : ∀ x, (∀ j, k + 1 ≤ j → j ≤ k + 6 → x ≠ .stack j) → (∀ j, heap.tick + 1 ≤ j → j < h2.tick → x ≠ .heap j) → m2 x = m1 x :=
    fun x h1 h3 => hm2 ▸ segsMem_other hk (fun j a b => h1 j a (by omega)) h3
  have ht2 : heap.tick + 1 ≤ h2.tick := hk.tick
  xs [← hm2]
  have P2 : PInv m2 (k + 7) heap.tick (k + 8) h2.tick [] h2 m2 (k + 8) := {
    bufc := hB.frame (f2 _ (by intro j h1 h3; simp; omega) (by simp)) (f2 _ (by simp) (by intro j h1 h3; simp; omega))
    held := fun c hc => by cases hc
    stack := fun j hj => (f2 _ (by intro i h1 h3; simp; omega) (by simp)).trans (hw1.stack j hj)
    free := fun j hj => (f2 _ (by simp) (by intro i h1 h3; simp; omega)).trans (hw1.heap j (by simp; omega))
    frame := fun _ _ _ _ _ => rfl
    hk := Nat.le_refl _
    ht := Nat.le_refl _
    hkb := by omega
    hid := by omega }
  have segI : ∀ b, (S.header = some b ∨ S.payload = some b ∨ S.signature = some b) → heap.tick + 1 ≤ b.id ∧ b.id < h2.tick := by
    intro b hb
    rcases hb with hb | hb | hb
    · exact ⟨(hk.header b hb).1, (hk.header b hb).2.1⟩
    · exact ⟨(hk.payload b hb).1, (hk.payload b hb).2.1⟩
    · exact ⟨(hk.signature b hb).1, (hk.signature b hb).2.1⟩
  have fr2 : ∀ x, (∀ j, k ≤ j → x ≠ .stack j) → (∀ j, heap.tick ≤ j → x ≠ .heap j) → m2 x = m0 x := fun x h1 h3 =>
    (f2 x (fun j a _ => h1 j (by omega)) (fun j a _ => h3 j (by omega))).trans (f1 x (h1 _ (by omega)) (h3 _ (Nat.le_refl _)))
  rw [List.set_set]
  refine wp_dFail0 hlen (fun hrc => ?_) fun hrc => ?_
  case refine_2 =>
    rw [if_pos (by simpa [L8W8JWT_SUCCESS] using hrc)] at hr3
    cases hr3
    simp only [dFail0, dVer, dParse, dFail, dVal]
    xs []
    refine hE1 hrc _ ?_
    exact AtExit.of (blk := ⟨heap.tick, []⟩) P2 hS2 hk (by omega) (fun b hb => by have := segI b hb; simp; omega) (fun c hc => by cases hc) (Nat.le_refl _) fr2 hT2.1
      (fun h => absurd h hrc) (by simp)
  rw [if_neg (by simpa [L8W8JWT_SUCCESS] using hrc)] at hr3
  rw [hrc]
  xs []
  obtain ⟨⟨rv, v⟩, h3, hver, hr4⟩ := M.bind_inv hr3
  have hT3 := tidy_verifySignature env q _ _ _ _ _ _ _ hver hT2.1
  have hd2 : DecAt m2 P q w := hd.frame fun x hx => by
    obtain ⟨lx, hlx⟩ := hd.known hx
    exact fr2 x (fun j hj => hu x hx j hj) (fun j hj => (hw.old hlx).2 j hj)
  unfold dVer
  xs []
  rw [hf1.g6]
  refine wp_loadV (c := cx env fuel (d + 3)) (l := [ptrVal S.signature]) (by exact hS2.s4) (by omega) (by rfl) (asTy_ptrVal _ _) ?_
  xs []
  rw [hf1.g7]
  refine wp_loadV (c := cx env fuel (d + 3)) (l := [.int S.signatureLength]) (by exact hS2.s5) (by omega) (by rfl) (asTy_u64 _ (by have := hk.sl; omega)) ?_
  xs []
  rw [hf1.p, hf1.v]
  have m2k : m2 (.stack k) = some [.int ((0 : VRes).toNat : Int)] :=
    (f2 _ (by intro j h1 h3; simp; omega) (by simp)).trans ((f1 _ (by simp) (by simp)).trans v0)
  refine wp_verify_signature env fuel (d + 1) hd2 (fun j => by rw [Lay.of_blk]; exact P2.stack _ (Nat.le_add_right _ _)) (fun i hi => P2.free i hi) rfl (v := 0) (by exact m2k) (sig := S.signature) (by exact pts_block hS2.sb) hj
    (by omega) hkl (by have := hk.sl; omega) (by omega) (by exact hver) ?_
  obtain ⟨m3, hm3⟩ : ∃ m3, m3 = upd m2 (.stack k) (some [.int v.toNat]) := ⟨_, rfl⟩
  have f3 : ∀ x, x ≠ .stack k → m3 x = m2 x := fun x hx => hm3 ▸ upd_ne _ _ hx
  have m3k : m3 (.stack k) = some [.int v.toNat] := hm3 ▸ upd_same _ _ _
  have fr3 : ∀ x, (∀ j, k ≤ j → x ≠ .stack j) → (∀ j, heap.tick ≤ j → x ≠ .heap j) → m3 x = m0 x := fun x h1 h3 =>
    (f3 x (h1 _ (Nat.le_refl _))).trans (fr2 x h1 h3)
  have hS3 : SegsAt m3 (k + 1) S := hS2.frame (fun j h1 h3 => f3 _ (by simp; omega)) (fun b hb => f3 _ (by simp))
  have P3 : PInv m3 (k + 7) heap.tick (k + 8) h3.tick [] h3 m3 (k + 8) :=
    hm3 ▸ ((P2.both (j := k) (by omega) (by omega) _).later hT3.2).rebase
  simp only [← hm3]
  xs []
  rw [List.set_set]
  refine wp_dFail0 hlen (fun hrc => ?_) fun hrc => ?_
  case refine_2 =>
    rw [if_pos (by simpa [L8W8JWT_SUCCESS] using hrc)] at hr4
    cases hr4
    simp only [dParse, dFail, dVal]
    xs []
    refine hE1 hrc _ ?_
    exact AtExit.of (blk := ⟨heap.tick, []⟩) P3 hS3 hk (by omega) (fun b hb => by have := segI b hb; simp; omega) (fun c hc => by cases hc) (Nat.le_refl _) fr3 hT3.1
      (fun h => absurd h hrc) (by simp)
  rw [if_neg (by simpa [L8W8JWT_SUCCESS] using hrc)] at hr4
  rw [hrc]
  xs []
  obtain ⟨⟨r1, cs1⟩, h4, hp1, hr5⟩ := M.bind_inv hr4
  have hT4 := tidy_parseClaims env _ _ _ _ _ _ _ hp1 hT3.1
  obtain ⟨id1, len1⟩ := parseClaims_ids hp1
  rw [List.length_nil, Nat.zero_add] at len1
  have segJ : ∀ b, (S.header = some b ∨ S.payload = some b ∨ S.signature = some b) → b.id ≠ heap.tick ∧ b.id < h3.tick := by
    intro b hb
    have := segI b hb
    have := hT3.2
    omega
  refine wp_dParse env fuel d (j := k + 1) hf1 hf1.g2 hf1.g3 P3 (p := S.header) (n := S.headerLength) hS3.s0 hS3.s1 (fun b hb => ⟨hS3.hb b hb, segJ b (Or.inl hb)⟩)
    (by have := hk.hl; omega) hg (by have := hk.hl; omega) hp1 ?_
  intro m4 P4
  have P4' := P3.trans rfl P4
  xs []
  rw [List.set_set]
  have hc1 : ∀ c ∈ cs1, ∀ a, (c.key = some a ∨ c.value = some a) → h3.tick ≤ a.id := by
    intro c hc
    rcases id1 c hc with h | h
    · cases h
    · exact h
  refine wp_dFail hlen (fun hrc => ?_) fun hrc => ?_
  case refine_2 =>
    rw [if_pos (by simpa [L8W8JWT_SUCCESS] using hrc)] at hr5
    cases hr5
    simp only [dParse, dFail, dVal]
    xs []
    refine hE1 (by simp [L8W8JWT_DECODE_FAILED_INVALID_TOKEN_FORMAT]) _ ?_
    exact AtExit.of (blk := ⟨heap.tick, []⟩) P4' hS3 hk (by omega) (fun b hb => by have := segI b hb; have := segJ b hb; simp; omega) hc1 (Nat.le_refl _) fr3 hT4.1
      (fun h => by cases h) (Nat.le_trans len1 (Nat.le_trans hk.hl (by omega)))
  rw [if_neg (by simpa [L8W8JWT_SUCCESS] using hrc)] at hr5
  rw [hrc]
  xs []
  obtain ⟨⟨r2, cs2⟩, h5, hp2, hr6⟩ := M.bind_inv hr5
  have hT5 := tidy_parseClaims env _ _ _ _ _ _ _ hp2 hT4.1
  obtain ⟨id2, len2⟩ := parseClaims_ids hp2
  simp only at len2
  have f4 : ∀ x, x ≠ .stack (k + 7) → x ≠ .heap heap.tick → (∀ j, k + 8 ≤ j → x ≠ .stack j) → (∀ j, h3.tick ≤ j → x ≠ .heap j) → m4 x = m3 x := P4.frame
  have hS4 : SegsAt m4 (k + 1) S := hS3.frame
    (fun j h1 h3 => f4 _ (by simp; omega) (by simp) (by intro i hi; simp; omega) (by simp))
    (fun b hb => by have := segJ b hb; exact f4 _ (by simp) (by simp; omega) (by simp) (by intro i hi; simp; omega))
  refine wp_dParse env fuel d (j := k + 3) hf1 hf1.g4 hf1.g5 P4.rebase (p := S.payload) (n := S.payloadLength) hS4.s2 hS4.s3
    (fun b hb => ⟨hS4.pb b hb, (segJ b (Or.inr (Or.inl hb))).1, by have := (segJ b (Or.inr (Or.inl hb))).2; have := hT4.2; omega⟩)
    (by have := hk.pl; omega) hg (by have := hk.pl; omega) hp2 ?_
  intro m5 P5
  have P5' := P4'.trans rfl P5
  xs []
  rw [List.set_set]
  have hc2 : ∀ c ∈ cs2, ∀ a, (c.key = some a ∨ c.value = some a) → h3.tick ≤ a.id := by
    intro c hc a ha
    rcases id2 c hc with h | h
    · exact hc1 c h a ha
    · have := h a ha
      have := hT4.2
      omega
  have hlen2 : cs2.length ≤ 2 * (m.length + 16) := by
    have := hk.hl
    have := hk.pl
    omega
  refine wp_dFail hlen (fun hrc => ?_) fun hrc => ?_
  case refine_2 =>
    rw [if_pos (by simpa [L8W8JWT_SUCCESS] using hrc)] at hr6
    cases hr6
    simp only [dVal]
    xs []
    refine hE1 (by simp [L8W8JWT_DECODE_FAILED_INVALID_TOKEN_FORMAT]) _ ?_
    exact AtExit.of (blk := ⟨heap.tick, []⟩) P5' hS3 hk (by omega) (fun b hb => by have := segI b hb; have := segJ b hb; simp; omega) hc2 (Nat.le_refl _) fr3 hT5.1
      (fun h => by cases h) hlen2
  rw [if_neg (by simpa [L8W8JWT_SUCCESS] using hrc)] at hr6
  rw [hrc]
  xs []
  obtain ⟨v2, hval, hr7⟩ := M.liftBind_inv hr6
  cases hr7
  unfold dVal
  xs []
  rw [hf1.p, hf1.g8, hf1.v]
  have fr5 : ∀ x, (∀ j, k ≤ j → x ≠ .stack j) → (∀ j, heap.tick ≤ j → x ≠ .heap j) → m5 x = m0 x := fun x h1 h4 => by
    have := hT3.2
    rw [P5'.frame x (h1 _ (by omega)) (h4 _ (Nat.le_refl _)) (fun j hj => h1 j (by omega)) (fun j hj => h4 j (by omega))]
    exact fr3 x h1 h4
  have m5k : m5 (.stack k) = some [.int v.toNat] := by
    rw [P5'.frame _ (by simp) (by simp) (by intro j hj; simp; omega) (by simp)]
    exact m3k
  obtain ⟨-, -, -, ⟨g5, bs5⟩, rest5, ba5⟩ := P5'.bufc
  have hV : VCtx m5 (k + 8) h' (.stack k) P (.stack (k + 7)) (.heap heap.tick) q w cs2 := {
    own := rfl
    fits := by omega
    par := fun x => hd.frame fun y hy => by
      obtain ⟨ly, hly⟩ := hd.known hy
      rw [upd_ne _ _ (hu y hy k (Nat.le_refl _))]
      exact fr5 y (fun j hj => hu y hy j hj) (fun j hj => (hw.old hly).2 j hj)
    buf := fun x => ⟨_, (cont_own rfl).trans ((upd_ne _ _ (by simp)).trans bs5)⟩
    arr := fun x => held_claimsAt ((upd_ne _ _ (by simp)).trans ba5) (P5'.held.frame (fun j _ _ => upd_ne (b := .stack k) _ _ (by simp)) (Nat.le_refl _))
    wf := fun x fr => ⟨fun j hj => by
      have hj : k + 8 ≤ j := hj
      exact (upd_ne _ _ (by simp; omega)).trans (P5'.stack j hj), fun j hj => (upd_ne (b := .stack k) m5 (some [x]) (by simp)).trans (P5'.free j hj)⟩ }
  have hup : m5 = upd m5 (.stack k) (some [.int v.toNat]) := (upd_self m5k).symm
  rw [hup]
  refine wp_validate_claims env fuel (d + 1) hV hval (by omega) hft ?_
  xs []
  rw [List.set_set]
  refine hE0 rfl _ ?_
  exact AtExit.of (blk := ⟨heap.tick, []⟩) (P5'.both (j := k) (by omega) (by omega) _) (hS3.frame (fun j h1 h4 => upd_ne _ _ (by simp; omega)) (fun b hb => upd_ne _ _ (by simp [ne_eq])))
    hk (by omega) (fun b hb => by have := segI b hb; have := segJ b hb; simp; omega) hc2 (Nat.le_refl _)
    (fun x h1 h4 => (upd_ne _ _ (h1 _ (Nat.le_refl _))).trans (fr3 x h1 h4)) hT5.1 (fun _ => upd_same _ _ _) hlen2

end L8w8jwt.C
