import Verif.C.SignWhole
/-!
# l8w8jwt_encode (src/encode.c:640-681): text and model
-/

namespace L8w8jwt.C
open L8w8jwt L8w8jwt.C.Src

/-! ## The allocator -/

/-- Calls of the allocator are numbered upwards. -/
def Later {α : Type} (m : M α) : Prop := ∀ s h a h', m s h = .ok (a, h') → h.tick ≤ h'.tick

theorem Steady.later {α : Type} {m : M α} (h : Steady m) : Later m := fun _ _ _ _ e => (h _ _ _ _ e).2

theorem Later.pure {α : Type} (a : α) : Later (pure a : M α) := (Steady.pure a).later

theorem Later.lift {α : Type} (x : Res α) : Later (M.lift x) := (Steady.lift x).later

theorem Later.bind {α β : Type} {m : M α} {f : α → M β} (h1 : Later m) (h2 : ∀ a, Later (f a)) : Later (m >>= f) := by
  rintro s h a h' hr
  obtain ⟨x, g, e1, e2⟩ := M.bind_inv hr
  exact Nat.le_trans (h1 _ _ _ _ e1) (h2 _ _ _ _ _ e2)

theorem Later.alloc (b : Bytes) : Later (alloc b) := by
  rintro s h a h' hr
  unfold L8w8jwt.alloc at hr
  split at hr <;> cases hr <;> simp

theorem Later.free (p : Ptr) : Later (free p) := by
  rintro s h a h' hr
  cases p with
  | none => cases hr; exact Nat.le_refl _
  | some b =>
    simp only [L8w8jwt.free] at hr
    split at hr
    · cases hr; exact Nat.le_refl _
    · cases hr

theorem Later.push {α : Type} (cap : Nat) (buf es : List α) : Later (push cap buf es) := (Steady.push cap buf es).later

theorem Later.ite {α : Type} {c : Prop} [Decidable c] {a b : M α} (h1 : Later a) (h2 : Later b) : Later (if c then a else b) := by
  split
  · exact h1
  · exact h2

theorem later_base64 (url : Bool) (m : Option Bytes) (n : Nat) (a b : Bool) : Later (base64Encode url m n a b) := by
  unfold base64Encode
  repeat' first
    | exact Later.pure _
    | exact Later.lift _
    | exact Later.alloc _
    | refine Later.ite ?_ ?_
    | refine Later.bind ?_ fun _ => ?_
    | split

theorem later_header (env : Env) (sb : Bytes) (p : EncParams) : Later (writeHeaderAndPayload env sb p) := by
  unfold writeHeaderAndPayload
  repeat' first
    | exact Later.pure _
    | exact Later.lift _
    | exact Later.alloc _
    | exact Later.free _
    | exact Later.push _ _ _
    | exact later_base64 _ _ _ _ _
    | exact (steady_headerText _ _ _).later
    | exact (steady_payloadText _ _).later
    | refine Later.ite ?_ ?_
    | refine Later.bind ?_ fun _ => ?_
    | split

theorem later_sigRest (sb sig : Bytes) : Later (sigRest sb sig) := by
  unfold sigRest
  repeat' first
    | exact Later.pure _
    | exact Later.lift _
    | exact Later.free _
    | exact Later.push _ _ _
    | exact later_base64 _ _ _ _ _
    | refine Later.ite ?_ ?_
    | refine Later.bind ?_ fun _ => ?_

theorem later_signature (env : Env) (sb : Bytes) (p : EncParams) : Later (writeSignature env sb p) := by
  unfold writeSignature writeSignatureBody
  repeat' first
    | exact Later.pure _
    | exact Later.lift _
    | exact Later.alloc _
    | exact Later.free _
    | exact later_sigRest _ _
    | refine Later.ite ?_ ?_
    | refine Later.bind ?_ fun _ => ?_
    | split

/-- The length of header and payload. -/
theorem headerPayload_length {env : Env} {sb sb' : Bytes} {p : EncParams} {s : Sched} {h h' : Heap} {rc : Nat}
    (hsz : 8 * encBytes p < 18446744073709551616)
    (hr : writeHeaderAndPayload env sb p s h = .ok ((rc, sb'), h')) : sb'.length ≤ sb.length + 4 * encBytes p + 10 := by
  have hE : encBytes p ≥ 10000 + claimsBytes p.headerClaims := by unfold encBytes; omega
  simp only [writeHeaderAndPayload] at hr
  obtain ⟨blk, h1, e1, hr⟩ := M.bind_inv hr
  cases blk with
  | none =>
    obtain ⟨e, -⟩ := M.pure_inv hr
    cases e; omega
  | some blk =>
  cases hpre : headerPrefix p.alg with
  | none =>
    simp only [hpre] at hr
    obtain ⟨u, h2, e2, hr⟩ := M.bind_inv hr
    obtain ⟨e, -⟩ := M.pure_inv hr
    cases e; omega
  | some ln =>
  obtain ⟨lit, n⟩ := ln
  simp only [hpre] at hr
  obtain ⟨pre, epre, hr⟩ := M.liftBind_inv hr
  obtain ⟨hn, rfl⟩ := rdN_inv epre
  obtain ⟨q1, h2, g1, hr⟩ := M.bind_inv hr
  obtain ⟨q2, h3, g2, hr⟩ := M.bind_inv hr
  obtain ⟨sg, h4, g3, hr⟩ := M.bind_inv hr
  have hl2 : q2.length ≤ encBytes p := by
    have := headerText_length g2
    have l1 := push_length g1
    have l2 := List.length_take_le n lit
    have l3 := headerPrefix_le hpre
    simp only [List.length_nil] at l1
    omega
  rcases b64_inv (by omega) g3 with ⟨hrc, -⟩ | ⟨t, len, rfl, rfl, hm1, hm2, hm3⟩
  · rw [if_pos hrc] at hr
    obtain ⟨u, h5, e2, hr⟩ := M.bind_inv hr
    obtain ⟨e, -⟩ := M.pure_inv hr
    cases e; omega
  simp only [L8W8JWT_SUCCESS, ne_eq, not_true_eq_false, if_false, Option.getD_some, Ptr.bytes, Option.map_some, deref] at hr
  obtain ⟨_, em, hr⟩ := M.liftBind_inv hr
  cases em
  obtain ⟨tx, etx, hr⟩ := M.liftBind_inv hr
  obtain ⟨-, rfl⟩ := rdN_inv etx
  obtain ⟨q3, h5, g5, hr⟩ := M.bind_inv hr
  obtain ⟨u, h6, g6, hr⟩ := M.bind_inv hr
  obtain ⟨q5, h7, g7, hr⟩ := M.bind_inv hr
  obtain ⟨sg2, h8, g8, hr⟩ := M.bind_inv hr
  have l5 := push_length g5
  have l5' := List.length_take_le len t
  have l7 := payloadText_length g7
  rcases b64_inv (by omega) g8 with ⟨hrc, -⟩ | ⟨t', len', rfl, rfl, hm1', hm2', hm3'⟩
  · rw [if_pos hrc] at hr
    obtain ⟨u, h9, e2, hr⟩ := M.bind_inv hr
    obtain ⟨e, -⟩ := M.pure_inv hr
    cases e; omega
  simp only [not_true_eq_false, if_false, Option.getD_some, Option.map_some] at hr
  obtain ⟨_, em, hr⟩ := M.liftBind_inv hr
  cases em
  obtain ⟨tx, etx, hr⟩ := M.liftBind_inv hr
  obtain ⟨-, rfl⟩ := rdN_inv etx
  obtain ⟨q8, h9, g9, hr⟩ := M.bind_inv hr
  obtain ⟨q9, h10, g10, hr⟩ := M.bind_inv hr
  obtain ⟨u, h11, g11, hr⟩ := M.bind_inv hr
  obtain ⟨u, h12, g12, hr⟩ := M.bind_inv hr
  obtain ⟨e, -⟩ := M.pure_inv hr
  cases e
  have l9 := push_length g9
  have l10 := push_length g10
  have l10' := List.length_take_le len' t'
  have : (str ".").length = 1 := rfl
  omega

/-! ## The function -/

theorem wr_at {m1 m2 : Blk → Option (List Val)} {x : Blk} (h : m1 x = m2 x) (v : Val) (c : List Val) : wr m1 v c x = wr m2 v c x := by
  unfold wr
  split
  · rename_i b o
    by_cases hx : x = b
    · subst hx; rw [upd_same, upd_same, h]
    · rw [upd_ne _ _ hx, upd_ne _ _ hx, h]
  · exact h

theorem newBlk_at {m1 m2 : Blk → Option (List Val)} {x : Blk} (h : m1 x = m2 x) (p : Ptr) (n : Nat) : newBlk m1 p n x = newBlk m2 p n x := by
  cases p with
  | none => exact h
  | some b =>
    simp only [newBlk]
    by_cases hx : x = .heap b.id
    · subst hx; rw [upd_same, upd_same]
    · rw [upd_ne _ _ hx, upd_ne _ _ hx, h]

theorem encMem_at {m1 m2 : Blk → Option (List Val)} {x : Blk} (h : m1 x = m2 x) (w : EncPtrs) (o : EncOut) : encMem m1 w o x = encMem m2 w o x := by
  unfold encMem bufMem
  apply wr_at
  cases o.out with
  | none => exact h
  | some p => exact newBlk_at (wr_at h _ _) _ _

theorem wr_none {m : Blk → Option (List Val)} {x : Blk} (h : m x = none) (v : Val) (c : List Val) : wr m v c x = none := by
  unfold wr
  split
  · rename_i b o
    by_cases hx : x = b
    · subst hx; rw [upd_same, h]; rfl
    · rw [upd_ne _ _ hx, h]
  · exact h

theorem encMem_none {m : Blk → Option (List Val)} {x : Blk} (h : m x = none) (w : EncPtrs) (o : EncOut)
    (hn : ∀ b, o.out = some (some b) → x ≠ .heap b.id) : encMem m w o x = none := by
  unfold encMem bufMem
  apply wr_none
  cases ho : o.out with
  | none => exact h
  | some p =>
    cases p with
    | none => exact wr_none h _ _
    | some b =>
      simp only [newBlk]
      rw [upd_ne _ _ (hn b ho)]
      exact wr_none h _ _

theorem wr_other {m : Blk → Option (List Val)} {x : Blk} {v : Val} (h : v.blk ≠ some x) (c : List Val) : wr m v c x = m x := by
  unfold wr
  split
  · rename_i b o
    exact upd_ne _ _ (by rintro rfl; exact h rfl)
  · rfl

theorem encMem_other {m : Blk → Option (List Val)} {x : Blk} {w : EncPtrs} {o : EncOut} (h1 : (nul w.out).blk ≠ some x)
    (h2 : (nul w.outLength).blk ≠ some x) (hn : ∀ b, o.out = some (some b) → x ≠ .heap b.id) : encMem m w o x = m x := by
  unfold encMem bufMem
  rw [wr_other h2]
  cases ho : o.out with
  | none => rfl
  | some p =>
    cases p with
    | none => exact wr_other h1 _
    | some b =>
      simp only [newBlk]
      rw [upd_ne _ _ (hn b ho)]
      exact wr_other h1 _

theorem encMem_nil (m : Blk → Option (List Val)) (w : EncPtrs) (rc : Nat) : encMem m w { rc := rc } = m := by
  simp only [encMem, bufMem, Option.toList, List.map_nil, wr_nil]

/-- encode.c:678-680 -/
def encExit : Stmt :=
  .seq (.label "exit") (.seq (.exp (.call "chillbuff_free" (.cons (.loc 2) .nil))) (.ret (.loc 1)))

/-- encode.c:672-680 -/
def encTok : Stmt :=
  .seq (.exp (.set 1 (.call "write_token" (.cons (.loc 2) (.cons (.loc 0) .nil)))))
    (.seq (.ite (.cmp .ne (.loc 1) (.num 0)) (.goto "exit") .skip) encExit)

/-- encode.c:663-680 -/
def encSig : Stmt :=
  .seq (.ite (.cmp .ne (.load (.int .i32) (.loc 0)) (.num (-1)))
    (.seq (.exp (.set 1 (.call "write_signature" (.cons (.loc 2) (.cons (.loc 0) .nil)))))
      (.ite (.cmp .ne (.loc 1) (.num 0)) (.goto "exit") .skip)) .skip) encTok

theorem encode_body : l8w8jwt_encode.body =
    .seq (.decl 1) (.seq (.declMem 2 5 [] .undef)
      (.seq (.exp (.set 1 (.call "l8w8jwt_validate_encoding_params" (.cons (.loc 0) .nil))))
        (.seq (.ite (.cmp .ne (.loc 1) (.num 0)) (.ret (.loc 1)) .skip)
          (.seq (.exp (.set 1 (.call "chillbuff_init" (.cons (.loc 2) (.cons (.num 1024) (.cons (.num 1) (.cons (.num 1) .nil)))))))
            (.seq (.ite (.cmp .ne (.loc 1) (.num 0)) (.ret (.num 300)) .skip)
              (.seq (.exp (.set 1 (.call "write_header_and_payload" (.cons (.loc 2) (.cons (.loc 0) .nil)))))
                (.seq (.ite (.cmp .ne (.loc 1) (.num 0)) (.goto "exit") .skip) encSig))))))) := rfl

section
variable {fr0 : List Val} {heap heap0 h' : Heap} {mem mem0 memF : Blk → Option (List Val)} {k bid : Nat} {sb : Bytes} {s : Sched}

theorem wp_test1 {c : Ctx} {r : Nat} {X : Stmt} {st : St} {Q : Ctl → St → Prop} (hr : st.fr.getD 1 .undef = .int r)
    (h0 : r = 0 → Q (.next .run) st) (h1 : r ≠ 0 → WP (exec c X .run) s st Q) :
    WP (exec c (.ite (.cmp .ne (.loc 1) (.num 0)) X .skip) .run) s st Q := by
  rw [wp_if]
  xs []
  rw [hr]
  xs []
  by_cases h : r = 0
  · subst h
    xs []
    exact h0 rfl
  · have : ¬ (r : Int) = 0 := by omega
    xs [this]
    exact h1 h

theorem wp_encExit (env : Env) (fuel d : Nat) {md : Mode} {a r : Val} {Q : Val → St → Prop} (hmd : md = .run ∨ md = .label "exit")
    (hB : BufAt mem (.stack k) bid 1024 sb) (hl : bid ∈ heap.live)
    (h1 : ∀ j, k ≤ j → memF (.stack j) = none) (h2 : memF (.heap bid) = none)
    (h3 : ∀ x, (∀ j, k ≤ j → x ≠ .stack j) → x ≠ .heap bid → memF x = mem x)
    (hq : Q r ⟨fr0, { heap with live := heap.live.erase bid }, memF, k⟩) :
    WP (exec (cx env fuel d) encExit md) s ⟨[a, r, .ptr (some (.stack k, 0))], heap, mem, k + 1⟩ (Return ⟨fr0, heap0, mem0, k⟩ Q) := by
  unfold encExit
  rw [wp_seq]
  have hlab : ∀ (st : St) (R : Ctl → St → Prop), R (.next .run) st → WP (exec (cx env fuel d) (.label "exit") md) s st R := by
    intro st R h
    rcases hmd with rfl | rfl
    · xi []; exact h
    · xi []; exact h
  refine hlab _ _ ?_
  xi []
  refine wp_bufFree env fuel d hB hl ?_
  intro v mem' g1 g2 g3
  xi []
  have : dropStack k mem' = memF := by
    funext x
    by_cases hx : ∃ j, k ≤ j ∧ x = .stack j
    · obtain ⟨j, hj, rfl⟩ := hx
      rw [dropStack_lt _ _ _ hj, h1 j hj]
    · have hx' : ∀ j, k ≤ j → x ≠ .stack j := fun j hj e => hx ⟨j, hj, e⟩
      rw [dropStack_ne _ _ hx']
      by_cases hb : x = .heap bid
      · subst hb; rw [h2, g2]
      · rw [h3 x hx' hb]
        exact g3 x (hx' k (Nat.le_refl _)) hb
  rw [this]
  exact hq

end

theorem validate_len {p : EncParams} (h : validateEncodingParams (some p) = 0) : 0 < p.secretKeyLength ∧ p.outNull = false ∧ p.outLengthNull = false := by
  unfold validateEncodingParams at h
  simp only at h
  split at h
  · cases h
  · rename_i h1
    split at h
    · cases h
    · rename_i h2
      simp only [Bool.or_eq_true, not_or, Bool.not_eq_true, decide_eq_true_eq] at h1 h2
      exact ⟨by omega, h1.1.2, h1.2⟩

/-- src/encode.c:640-681: the text of `l8w8jwt_encode`: return code, `*out`, `*out_length`, the token and the state of the allocator are those
of the model; nothing else in memory changes. -/
theorem encode_text (env : Env) (fuel d : Nat) (s : Sched) (st : St) (hw : Wf st) (P : Blk) (p : EncParams) (w : EncPtrs)
    (hE : EncAt st.mem P p w) (hF : Fits fuel p)
    (ha1 : Apart (nul w.out) [P]) (ha2 : Apart (nul w.outLength) [P]) (hsep : Sep (nul w.out) (nul w.outLength)) (o : EncOut) (h' : Heap)
    (hr : encode env (some p) s st.heap = .ok (o, h')) :
    runFun (cx env fuel (d + 3)) l8w8jwt_encode [.ptr (some (P, 0))] s st = .ok (.int o.rc, { st with heap := h', mem := encMem st.mem w o }) := by
  apply run_of_wp
  apply wp_runFun
  rw [encode_body]
  simp only [l8w8jwt_encode, Nat.reduceSub, List.replicate, List.cons_append, List.nil_append]
  obtain ⟨fr0, heap0, m0, k⟩ := st
  have hm0 := hw.heap
  have hs0 := hw.stack
  simp only at hm0 hs0 hE hr
  have hEk : EncAt (upd m0 (.stack k) (some (List.replicate 5 .undef))) P p w :=
    hE.over fun b l hl => by
      rw [upd_ne]
      · exact hl
      · rintro rfl; rw [hs0 k (Nat.le_refl _)] at hl; cases hl
  xi []
  refine wp_validate_enc env fuel (d + 2) ?_ hEk ?_
  · intro j hj
    simp only at hj ⊢
    rw [upd_ne _ _ (by simp; omega)]
    exact hs0 j (by omega)
  have hdrop : dropStack k (upd m0 (.stack k) (some (List.replicate 5 .undef))) = m0 := by
    funext x
    by_cases hx : ∃ j, k ≤ j ∧ x = .stack j
    · obtain ⟨j, hj, rfl⟩ := hx
      rw [dropStack_lt _ _ _ hj, hs0 j hj]
    · have hx' : ∀ j, k ≤ j → x ≠ .stack j := fun j hj e => hx ⟨j, hj, e⟩
      rw [dropStack_ne _ _ hx', upd_ne _ _ (hx' k (Nat.le_refl _))]
  xi []
  unfold encode at hr
  refine wp_test1 rfl (fun hv => ?_) fun hv => ?_
  rotate_left
  · rw [if_pos hv] at hr
    obtain ⟨e, rfl⟩ := M.pure_inv hr
    cases e
    xi []
    rw [encMem_nil]
    exact congrArg (fun x => (⟨fr0, _, x, k⟩ : St)) hdrop
  rw [if_neg (by rw [hv]; decide)] at hr
  obtain ⟨hlen0, hn1, hn2⟩ := validate_len hv
  simp only at hr
  obtain ⟨blk, h1, eb, hr⟩ := M.bind_inv hr
  unfold alloc at eb
  xi []
  refine wp_init env fuel (d + 3) (cap := 1024) (es := 1) (g := 1) (l := List.replicate 5 .undef) (st := ⟨_, heap0, upd m0 (.stack k) _, k + 1⟩) rfl
    (upd_same _ _ _) rfl (by simp) ?_
  split
  · rename_i hfail
    rw [if_pos hfail] at eb
    cases eb
    obtain ⟨e, rfl⟩ := M.pure_inv hr
    cases e
    intro mem' hf hk
    xi []
    refine wp_test1 (r := 1) rfl (fun h => absurd h (by decide)) fun _ => ?_
    xi []
    rw [encMem_nil]
    refine ⟨rfl, congrArg (fun x => (⟨fr0, { tick := heap0.tick + 1, live := heap0.live }, x, k⟩ : St)) ?_⟩
    refine Eq.trans ?_ hdrop
    funext x
    by_cases hx : ∃ j, k ≤ j ∧ x = .stack j
    · obtain ⟨j, hj, rfl⟩ := hx
      rw [dropStack_lt _ _ _ hj, dropStack_lt _ _ _ hj]
    · have hx' : ∀ j, k ≤ j → x ≠ .stack j := fun j hj e => hx ⟨j, hj, e⟩
      rw [dropStack_ne _ _ hx', dropStack_ne _ _ hx']
      by_cases hb : x = .heap heap0.tick
      · subst hb; exact hk
      · exact hf x (hx' k (Nat.le_refl _)) hb
  rename_i hfail
  rw [if_neg hfail] at eb
  cases eb
  intro mem1 hbuf1 hf1
  xi []
  refine wp_test1 (r := 0) rfl (fun _ => ?_) fun h => absurd rfl h
  have hfr1 : ∀ x, x ≠ .stack k → x ≠ .heap heap0.tick → mem1 x = m0 x := fun x g1 g2 => (hf1 x g1 g2).trans (upd_ne _ _ g1)
  have hover : ∀ {mem}, (∀ x, x ≠ .stack k → x ≠ .heap heap0.tick → mem x = m0 x) → Over m0 mem := by
    intro mem hm b l hl
    rw [hm]
    · exact hl
    · rintro rfl; rw [hs0 k (Nat.le_refl _)] at hl; cases hl
    · rintro rfl; rw [hm0 _ (Nat.le_refl _)] at hl; cases hl
  have hwf : ∀ {mem h fr}, (∀ x, x ≠ .stack k → x ≠ .heap heap0.tick → mem x = m0 x) → heap0.tick + 1 ≤ h.tick → Wf ⟨fr, h, mem, k + 1⟩ := by
    intro mem h fr hm ht
    refine ⟨fun j hj => ?_, fun i hi => ?_⟩
    · simp only at hj ⊢
      rw [hm _ (by simp; omega) (by simp)]
      exact hs0 j (by omega)
    · simp only at hi ⊢
      rw [hm _ (by simp) (by simp; omega)]
      exact hm0 i (by omega)
  obtain ⟨o1, h2, ebody, hr⟩ := M.bind_inv hr
  obtain ⟨u, h3, efree, hr⟩ := M.bind_inv hr
  obtain ⟨e, rfl⟩ := M.pure_inv hr
  cases e
  have hlive : heap0.tick ∈ h2.live ∧ h3 = { h2 with live := h2.live.erase heap0.tick } := by
    simp only [free] at efree
    split at efree
    · rename_i hm
      cases efree
      exact ⟨hm, rfl⟩
    · cases efree
  obtain ⟨hlive, rfl⟩ := hlive
  have hfail' : ∀ {mem md a rc sb}, (∀ x, x ≠ .stack k → x ≠ .heap heap0.tick → mem x = m0 x) → BufAt mem (.stack k) heap0.tick 1024 sb →
      md = .run ∨ md = .label "exit" → o = { rc := rc } →
      WP (exec (cx env fuel (d + 3)) encExit md) s ⟨[a, .int rc, .ptr (some (.stack k, 0))], h2, mem, k + 1⟩
        (Return ⟨fr0, heap0, m0, k⟩ fun v' st'' => v' = .int o.rc ∧
          st'' = (⟨fr0, { h2 with live := h2.live.erase heap0.tick }, encMem m0 w o, k⟩ : St)) := by
    intro mem md a rc sb hm hb hmd ho
    subst ho
    rw [encMem_nil]
    refine wp_encExit env fuel (d + 3) (memF := m0) hmd hb hlive hs0 (hm0 _ (Nat.le_refl _)) ?_ ⟨rfl, rfl⟩
    intro x g1 g2
    exact (hm x (g1 k (Nat.le_refl _)) g2).symm
  unfold encodeBody at ebody
  obtain ⟨⟨rc, sb2⟩, h4, ehp, ebody⟩ := M.bind_inv ebody
  have hbase : Base m0 mem1 (k + 1) (heap0.tick + 1) (.stack k) heap0.tick :=
    ⟨hover hfr1, hs0 k (Nat.le_refl _), hm0 _ (Nat.le_refl _), fun j hj => hs0 j (by omega), fun j hj => hm0 j (by omega)⟩
  xi []
  rw [cx_fun _ _ _ (fn := write_header_and_payload) rfl]
  obtain ⟨mem2, hrun2, hb2, hf2⟩ := header_and_payload_text env fuel d s
    ⟨[.ptr (some (P, 0)), .int 0, .ptr (some (.stack k, 0))], { tick := heap0.tick + 1, live := heap0.tick :: heap0.live }, mem1, k + 1⟩
    (hwf hfr1 (Nat.le_refl _)) (.stack k) P heap0.tick [] p w m0 hbuf1 hbase hE hF rc sb2 h4 ehp
  have ht4 := later_header _ _ _ _ _ _ _ ehp
  have hsb2 := headerPayload_length hF.size ehp
  have hfr2 : ∀ x, x ≠ .stack k → x ≠ .heap heap0.tick → mem2 x = m0 x := fun x g1 g2 => (hf2 x g1 g2).trans (hfr1 x g1 g2)
  refine (Eq.mpr (wp_of_eq hrun2) ?_ : WP _ s _ _)
  xi []
  simp only at ebody
  refine wp_test1 rfl (fun hz => ?_) fun hz => ?_
  rotate_left
  · rw [if_pos hz] at ebody
    obtain ⟨e, rfl⟩ := M.pure_inv ebody
    cases e
    xi []
    unfold encSig encTok
    rw [wp_seq, skip_stmt (by rfl), then_next, wp_seq, skip_stmt (by rfl), then_next, wp_seq, skip_stmt (by rfl), then_next]
    exact hfail' hfr2 hb2 (.inr rfl) rfl
  rw [if_neg (by rw [hz]; decide)] at ebody
  subst hz
  obtain ⟨⟨rc3, sb3⟩, h5, esg, etok⟩ := M.bind_inv ebody
  simp only at etok
  have hEb := hF.bytes
  have hEs := hF.size
  have hE0 : 10000 ≤ encBytes p := by unfold encBytes; omega
  simp only [List.length_nil] at hsb2
  have htok : ∀ mem3, BufAt mem3 (.stack k) heap0.tick 1024 sb3 → (∀ x, x ≠ .stack k → x ≠ .heap heap0.tick → mem3 x = m0 x) →
      sb3.length ≤ sb2.length + 10000 → h4.tick ≤ h5.tick → rc3 = 0 → 
      WP (exec (cx env fuel (d + 3)) encTok .run) s ⟨[.ptr (some (P, 0)), .int 0, .ptr (some (.stack k, 0))], h5, mem3, k + 1⟩
        (Return ⟨fr0, heap0, m0, k⟩ fun v' st'' => v' = .int o.rc ∧
          st'' = (⟨fr0, { h2 with live := h2.live.erase heap0.tick }, encMem m0 w o, k⟩ : St)) := by
    intro mem3 hb3 hfr3 hsb3 ht5 hz
    rw [if_neg (by rw [hz]; decide)] at etok
    unfold encTok
    have hap : ∀ {v n}, Slot m0 v n → Apart v [P] → Apart v [P, .stack k, .heap heap0.tick] := by
      intro v n hsl hap b hb
      simp only [List.mem_cons, List.not_mem_nil, or_false] at hb
      rcases hb with rfl | rfl | rfl
      · exact hap _ (by simp)
      · rcases hsl.ptr with ⟨-, e⟩ | ⟨-, b1, o1, l1, e, hb1, hm1, -⟩
        · rw [e]; simp [Val.blk]
        · rw [e]; simp only [Val.blk, ne_eq, Option.some.injEq]; rintro rfl; rw [hs0 k (Nat.le_refl _)] at hm1; cases hm1
      · rcases hsl.ptr with ⟨-, e⟩ | ⟨-, b1, o1, l1, e, hb1, hm1, -⟩
        · rw [e]; simp [Val.blk]
        · rw [e]; simp only [Val.blk, ne_eq, Option.some.injEq]; rintro rfl; rw [hm0 _ (Nat.le_refl _)] at hm1; cases hm1
    have hap1 := hap hE.out ha1
    have hap2 := hap hE.outLength ha2
    have hnew : ∀ b, o.out = some (some b) → heap0.tick < b.id := by
      intro b hb
      unfold writeToken at etok
      obtain ⟨q, h6, ea, et⟩ := M.bind_inv etok
      unfold alloc at ea
      split at ea
      · cases ea
        obtain ⟨e, -⟩ := M.pure_inv et
        rw [← e] at hb; cases hb
      · cases ea
        obtain ⟨e, -⟩ := M.pure_inv et
        rw [← e] at hb
        cases hb
        show heap0.tick < h5.tick
        simp only at ht4
        omega
    have hk1 : encMem mem3 w o (.stack k) = mem3 (.stack k) :=
      encMem_other (hap1 _ (by simp)) (hap2 _ (by simp)) fun b hb => by simp
    have hk2 : encMem mem3 w o (.heap heap0.tick) = mem3 (.heap heap0.tick) :=
      encMem_other (hap1 _ (by simp)) (hap2 _ (by simp)) fun b hb => by have := hnew b hb; simp; omega
    have hb4 : BufAt (encMem mem3 w o) (.stack k) heap0.tick 1024 sb3 := by
      obtain ⟨g1, g2, g3, ⟨g, g4⟩, rest, g5⟩ := hb3
      exact ⟨g1, g2, g3, ⟨g, hk1.trans g4⟩, rest, hk2.trans g5⟩
    xi []
    simp only at ht4
    refine wp_write_token env fuel (d + 2) (hwf hfr3 (by omega)) hb3 (hE.over (hover hfr3)) hn1 hn2 (by omega) hap1 hap2 hsep etok ?_
    xi []
    have hex : ∀ md, md = .run ∨ md = .label "exit" →
        WP (exec (cx env fuel (d + 3)) encExit md) s ⟨[.ptr (some (P, 0)), .int o.rc, .ptr (some (.stack k, 0))], h2, encMem mem3 w o, k + 1⟩
        (Return ⟨fr0, heap0, m0, k⟩ fun v' st'' => v' = .int o.rc ∧
          st'' = (⟨fr0, { h2 with live := h2.live.erase heap0.tick }, encMem m0 w o, k⟩ : St)) := by
      intro md hmd
      refine wp_encExit env fuel (d + 3) (memF := encMem m0 w o) hmd hb4 hlive ?_ ?_ ?_ ⟨rfl, rfl⟩
      · exact fun j hj => encMem_none (hs0 j hj) _ _ fun b hb => by simp
      · exact encMem_none (hm0 _ (Nat.le_refl _)) _ _ fun b hb => by have := hnew b hb; simp; omega
      · intro x g1 g2
        exact encMem_at (hfr3 x (g1 k (Nat.le_refl _)) g2).symm _ _
    refine wp_test1 rfl (fun hz => ?_) fun hz => ?_
    · rw [then_next]
      exact hex _ (.inl rfl)
    · xi []
      exact hex _ (.inr rfl)
  rw [then_next]
  unfold encSig
  rw [wp_seq, wp_if]
  xi []
  refine wp_loadV (c := cx env fuel (d + 3)) (l := encCells p w) ((cont_own hE.own).trans ((hE.over (hover hfr2)).cells)) (by omega) (by rfl)
    (asTy_i32 _ hE.alg.1 hE.alg.2) ?_
  xi []
  refine ⟨fun halg => ?_, fun halg => ?_⟩
  rotate_left
  · rw [if_neg halg] at esg
    obtain ⟨e, rfl⟩ := M.pure_inv esg
    cases e
    xi []
    exact htok _ hb2 hfr2 (by omega) (Nat.le_refl _) rfl
  rw [if_pos halg] at esg
  have ht5 := later_signature _ _ _ _ _ _ _ esg
  simp only at ht4
  xi []
  refine wp_write_signature env fuel (d + 1) (base := m0) ⟨hb2, ?_, fun j => by rw [Lay.of_blk]; simp, Nat.zero_le _, hover hfr2,
    fun j => by rw [Lay.of_blk]; exact hs0 _ (by omega), hE, by omega⟩
    (fun j => by rw [Lay.of_blk]; exact (hwf (fr := []) hfr2 (by omega)).stack _ (Nat.le_add_right _ _)) (hwf (fr := []) hfr2 (by omega)).heap hlen0 (by omega) esg ?_
  · intro j
    rw [Lay.of_blk]
    simp
    omega
  intro mem3 hb3 hf3 hl3
  have hfr3 : ∀ x, x ≠ .stack k → x ≠ .heap heap0.tick → mem3 x = m0 x := fun x g1 g2 => (hf3 x g1 g2).trans (hfr2 x g1 g2)
  xi []
  refine wp_test1 rfl (fun hz => ?_) fun hz => ?_
  · rw [then_next]
    subst hz
    exact htok _ hb3 hfr3 hl3 ht5 rfl
  · rw [if_pos hz] at etok
    obtain ⟨e, rfl⟩ := M.pure_inv etok
    cases e
    xi []
    unfold encTok
    rw [wp_seq, skip_stmt (by rfl), then_next, wp_seq, skip_stmt (by rfl), then_next]
    exact hfail' hfr3 hb3 (.inr rfl) rfl

/-- NULL -/
theorem encode_text_null (env : Env) (fuel d : Nat) (s : Sched) (st : St) (hw : Wf st) (o : EncOut) (h' : Heap)
    (hr : encode env none s st.heap = .ok (o, h')) :
    runFun (cx env fuel (d + 3)) l8w8jwt_encode [.ptr none] s st = .ok (.int o.rc, { st with heap := h' }) := by
  apply run_of_wp
  apply wp_runFun
  rw [encode_body]
  simp only [l8w8jwt_encode, Nat.reduceSub, List.replicate, List.cons_append, List.nil_append]
  obtain ⟨fr0, heap0, m0, k⟩ := st
  have hs0 := hw.stack
  simp only at hs0 hr
  xi []
  refine wp_validate_enc_null env fuel (d + 2) ?_ ?_
  · intro j hj
    simp only at hj ⊢
    rw [upd_ne _ _ (by simp; omega)]
    exact hs0 j (by omega)
  unfold encode at hr
  rw [if_pos (by decide)] at hr
  obtain ⟨e, rfl⟩ := M.pure_inv hr
  cases e
  xi []
  refine wp_test1 rfl (fun hv => absurd hv (by decide)) fun hv => ?_
  xi []
  refine congrArg (fun x => (⟨fr0, _, x, k⟩ : St)) ?_
  funext x
  by_cases hx : ∃ j, k ≤ j ∧ x = .stack j
  · obtain ⟨j, hj, rfl⟩ := hx
    rw [dropStack_lt _ _ _ hj, hs0 j hj]
  · have hx' : ∀ j, k ≤ j → x ≠ .stack j := fun j hj e => hx ⟨j, hj, e⟩
    rw [dropStack_ne _ _ hx', upd_ne _ _ (hx' k (Nat.le_refl _))]

end L8w8jwt.C
