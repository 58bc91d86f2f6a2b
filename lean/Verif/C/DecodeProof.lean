import Verif.C.DecodeCore
/-!
# The text of l8w8jwt_decode, l8w8jwt_decode_raw and l8w8jwt_decode_raw_no_validation

src/decode.c:739-747 and 771-1045. The caller's out pointers are NULL or point to different objects of one cell each, none of which is a
part of the parameters.
-/

namespace L8w8jwt.C
open L8w8jwt L8w8jwt.C.Src

/-- An out pointer: NULL or the beginning of an object. -/
def optV (o : Option Blk) : Val := .ptr (o.map fun b => (b, 0))

/-- Out pointers: each is NULL or points to an object of one cell; no two point to the same object. -/
structure OutsAt (mem : Blk → Option (List Val)) (os : List (Option Blk)) : Prop where
  cell : ∀ b, some b ∈ os → b.own = true ∧ ∃ x, mem b = some [x]
  diff : os.Pairwise fun a c => ∀ b, a = some b → c ≠ some b

/-- The parameters: NULL, or a struct that shares no object with the out pointers. -/
def ParamsAt (mem : Blk → Option (List Val)) (os : List (Option Blk)) (v : Val) (params : Option DecParams) : Prop :=
  match params with
  | none => v = .ptr none
  | some q => ∃ P w, v = .ptr (some (P, 0)) ∧ DecAt mem P q w ∧ ∀ b, Uses P w b → some b ∉ os

/-- What a call leaves unchanged: everything but the objects behind the out pointers. The blocks that are new have new numbers. -/
structure Kept (os : List (Option Blk)) (st : St) (h' : Heap) (mem' : Blk → Option (List Val)) : Prop where
  same : ∀ x, some x ∉ os → (∀ j, st.heap.tick ≤ j → x ≠ .heap j) → mem' x = st.mem x
  stack : ∀ j, st.stk ≤ j → mem' (.stack j) = none
  free : ∀ j, h'.tick ≤ j → mem' (.heap j) = none
  heap : HeapWf h'

/-- The object behind an out pointer afterwards: `v` was written, or nothing. -/
def Wrote (mem mem' : Blk → Option (List Val)) (o : Option Blk) (v : Option Val) : Prop :=
  ∀ b, o = some b → mem' b = match v with
    | none => mem b
    | some x => some [x]

theorem wp_declNull {c : Ctx} {s : Sched} {fr : List Val} {heap : Heap} {mem : Blk → Option (List Val)} {k i : Nat} {R : Stmt} {Q : Ctl → St → Prop}
    (hi : i < fr.length) (h : WP (exec c R .run) s ⟨fr.set i (.ptr (some (.stack k, 0))), heap, upd mem (.stack k) (some [.ptr none]), k + 1⟩ Q) :
    WP (exec c (.seq (.declMem i 1 [] .undef) (.seq (.exp (.store .ptr (.loc i) .null)) R)) .run) s ⟨fr, heap, mem, k⟩ Q := by
  obtain ⟨E, hE⟩ : ∃ E, E = R := ⟨_, rfl⟩
  rw [← hE] at h ⊢
  xs []
  rw [getD_set_same _ _ _ _ hi]
  refine wp_storeV rfl (l := [.undef]) (w := .ptr none) (by exact upd_same _ _ _) (by omega) (by simp) (by rfl) ?_
  xs []
  rw [upd_upd]
  exact h

theorem wp_declZero {c : Ctx} {s : Sched} {fr : List Val} {heap : Heap} {mem : Blk → Option (List Val)} {k i : Nat} {t : ITy} {R : Stmt} {Q : Ctl → St → Prop}
    (ht : t = .u64 ∨ t = .u32)
    (hi : i < fr.length) (h : WP (exec c R .run) s ⟨fr.set i (.ptr (some (.stack k, 0))), heap, upd mem (.stack k) (some [.int 0]), k + 1⟩ Q) :
    WP (exec c (.seq (.declMem i 1 [] .undef) (.seq (.exp (.store (.int t) (.loc i) (.num 0))) R)) .run) s ⟨fr, heap, mem, k⟩ Q := by
  obtain ⟨E, hE⟩ : ∃ E, E = R := ⟨_, rfl⟩
  rw [← hE] at h ⊢
  xs []
  rw [getD_set_same _ _ _ _ hi]
  refine wp_storeV rfl (l := [.undef]) (w := .int 0) (by exact upd_same _ _ _) (by omega) (by simp) (by rcases ht with rfl | rfl <;> rfl) ?_
  xs []
  rw [upd_upd]
  exact h

/-- Some declarations: the buffers and the lengths. -/
def dVars (i : Nat) (R : Stmt) : Stmt :=
  .seq (.declMem i 1 [] .undef) (.seq (.exp (.store .ptr (.loc i) .null))
  (.seq (.declMem (i + 1) 1 [] .undef) (.seq (.exp (.store (.int .u64) (.loc (i + 1)) (.num 0)))
  (.seq (.declMem (i + 2) 1 [] .undef) (.seq (.exp (.store .ptr (.loc (i + 2)) .null))
  (.seq (.declMem (i + 3) 1 [] .undef) (.seq (.exp (.store (.int .u64) (.loc (i + 3)) (.num 0)))
  (.seq (.declMem (i + 4) 1 [] .undef) (.seq (.exp (.store .ptr (.loc (i + 4)) .null))
  (.seq (.declMem (i + 5) 1 [] .undef) (.seq (.exp (.store (.int .u64) (.loc (i + 5)) (.num 0))) R)))))))))))

/-- Memory after them. -/
def vmem (mem : Blk → Option (List Val)) (k : Nat) : Blk → Option (List Val) :=
  upd (upd (upd (upd (upd (upd mem (.stack k) (some [.ptr none])) (.stack (k + 1)) (some [.int 0])) (.stack (k + 2)) (some [.ptr none]))
    (.stack (k + 3)) (some [.int 0])) (.stack (k + 4)) (some [.ptr none])) (.stack (k + 5)) (some [.int 0])

def vfr (fr : List Val) (i k : Nat) : List Val :=
  (((((fr.set i (.ptr (some (.stack k, 0)))).set (i + 1) (.ptr (some (.stack (k + 1), 0)))).set (i + 2) (.ptr (some (.stack (k + 2), 0)))).set (i + 3)
    (.ptr (some (.stack (k + 3), 0)))).set (i + 4) (.ptr (some (.stack (k + 4), 0)))).set (i + 5) (.ptr (some (.stack (k + 5), 0)))

theorem wp_dVars {c : Ctx} {s : Sched} {fr : List Val} {heap : Heap} {mem : Blk → Option (List Val)} {k i : Nat} {R : Stmt} {Q : Ctl → St → Prop}
    (hi : i + 5 < fr.length) (h : WP (exec c R .run) s ⟨vfr fr i k, heap, vmem mem k, k + 6⟩ Q) :
    WP (exec c (dVars i R) .run) s ⟨fr, heap, mem, k⟩ Q := by
  unfold dVars
  refine wp_declNull (by omega) ?_
  refine wp_declZero (Or.inl rfl) (by simp; omega) ?_
  refine wp_declNull (by simp; omega) ?_
  refine wp_declZero (Or.inl rfl) (by simp; omega) ?_
  refine wp_declNull (by simp; omega) ?_
  refine wp_declZero (Or.inl rfl) (by simp; omega) ?_
  exact h

theorem vmem_other (mem : Blk → Option (List Val)) (k : Nat) {x : Blk} (h : ∀ j, k ≤ j → j < k + 6 → x ≠ .stack j) : vmem mem k x = mem x := by
  unfold vmem
  rw [upd_ne _ _ (h _ (by omega) (by omega)), upd_ne _ _ (h _ (by omega) (by omega)), upd_ne _ _ (h _ (by omega) (by omega)),
    upd_ne _ _ (h _ (by omega) (by omega)), upd_ne _ _ (h _ (by omega) (by omega)), upd_ne _ _ (h _ (by omega) (by omega))]

theorem decodeBody_fail {env : Env} {q : DecParams} {s : Sched} {h h' : Heap} {D : DecState} (hr : decodeBody env q s h = .ok (D, h')) (hn : D.rc ≠ 0) :
    D.validation = ~~~L8W8JWT_VALID := by
  unfold decodeBody at hr
  obtain ⟨blk, h1, -, hr⟩ := M.bind_inv hr
  cases blk with
  | none => cases hr; rfl
  | some b =>
    obtain ⟨S, h2, -, hr⟩ := M.bind_inv hr
    split at hr
    · cases hr; rfl
    · obtain ⟨⟨r, v⟩, h3, -, hr⟩ := M.bind_inv hr
      dsimp only at hr
      split at hr
      · cases hr; rfl
      · obtain ⟨⟨r1, c1⟩, h4, -, hr⟩ := M.bind_inv hr
        dsimp only at hr
        split at hr
        · cases hr; rfl
        · obtain ⟨⟨r2, c2⟩, h5, -, hr⟩ := M.bind_inv hr
          dsimp only at hr
          split at hr
          · cases hr; rfl
          · obtain ⟨v2, -, hr⟩ := M.liftBind_inv hr
            cases hr
            exact absurd rfl hn

theorem decodeBody_blk {env : Env} {q : DecParams} {s : Sched} {h h' : Heap} {D : DecState} (hr : decodeBody env q s h = .ok (D, h')) (hn : D.rc = 0) :
    D.claims.blk ≠ none := by
  unfold decodeBody at hr
  obtain ⟨blk, h1, -, hr⟩ := M.bind_inv hr
  cases blk with
  | none => cases hr; cases hn
  | some b =>
    obtain ⟨S, h2, -, hr⟩ := M.bind_inv hr
    split at hr
    · cases hr; simp
    · obtain ⟨⟨r, v⟩, h3, -, hr⟩ := M.bind_inv hr
      dsimp only at hr
      split at hr
      · cases hr; simp
      · obtain ⟨⟨r1, c1⟩, h4, -, hr⟩ := M.bind_inv hr
        dsimp only at hr
        split at hr
        · cases hr; simp
        · obtain ⟨⟨r2, c2⟩, h5, -, hr⟩ := M.bind_inv hr
          dsimp only at hr
          split at hr
          · cases hr; simp
          · obtain ⟨v2, -, hr⟩ := M.liftBind_inv hr
            cases hr
            simp

theorem tidy_freeClaimsLoop : ∀ cs : List Claim, Tidy (freeClaimsLoop cs)
  | [] => Tidy.pure _
  | _ :: t => Tidy.liftBind fun _ => Tidy.liftBind fun _ => Tidy.bind (Tidy.free _) fun _ => Tidy.bind (Tidy.free _) fun _ => tidy_freeClaimsLoop t

theorem tidy_freeClaims (a : ClaimArr) (n : Nat) : Tidy (freeClaims a n) := by
  unfold freeClaims
  split
  · exact Tidy.pure _
  · exact Tidy.liftBind fun _ => Tidy.bind (tidy_freeClaimsLoop _) fun _ => Tidy.free _

theorem tidy_giveOrFree (b : Bool) (p : Ptr) (n : Nat) : Tidy (giveOrFree b p n) :=
  Tidy.ite (Tidy.bind (Tidy.free _) fun _ => Tidy.pure _) (Tidy.pure _)

/-- Memory after `l8w8jwt_free_claims`. -/
def cmem (mem : Blk → Option (List Val)) (a : ClaimArr) : Blk → Option (List Val) :=
  match a.blk with
  | none => mem
  | some b => kill (ownedIds (a.items.take a.items.length) ++ [b.id]) mem

theorem cmem_ne (mem : Blk → Option (List Val)) (a : ClaimArr) {x : Blk}
    (h : ∀ i, x = .heap i → (∀ b, a.blk = some b → b.id ≠ i) ∧ ∀ c ∈ a.items, ∀ b, (c.key = some b ∨ c.value = some b) → b.id ≠ i) :
    cmem mem a x = mem x := by
  unfold cmem
  cases ha : a.blk with
  | none => rfl
  | some b =>
    cases x with
    | heap i =>
      simp only [kill]
      rw [if_neg]
      rw [List.take_length]
      intro hi
      obtain ⟨h1, h2⟩ := h i rfl
      rcases List.mem_append.mp hi with hi | hi
      · simp only [ownedIds, List.mem_flatMap, List.mem_map, List.mem_append] at hi
        obtain ⟨c, hc, y, hy, rfl⟩ := hi
        exact h2 c hc y (by rcases hy with hy | hy <;> simp at hy <;> simp [hy]) rfl
      · simp at hi
        exact h1 b ha hi.symm
    | _ => rfl

theorem cmem_none (mem : Blk → Option (List Val)) (a : ClaimArr) {x : Blk} (h : mem x = none) : cmem mem a x = none := by
  unfold cmem
  cases a.blk with
  | none => exact h
  | some b =>
    cases x with
    | heap i => simp [kill, h]
    | _ => exact h

/-- Memory after a buffer was handed out or freed. -/
def gmem (mem : Blk → Option (List Val)) (o l : Option Blk) (p : Ptr) (n : Nat) : Blk → Option (List Val) :=
  match o with
  | none => fmem mem p
  | some b => upd (upd mem b (some [ptrVal p])) (l.getD b) (some [.int n])

theorem fmem_ne (mem : Blk → Option (List Val)) (p : Ptr) {x : Blk} (h : ∀ b, p = some b → x ≠ .heap b.id) : fmem mem p x = mem x := by
  cases p with
  | none => rfl
  | some b => exact upd_ne _ _ (h b rfl)

theorem fmem_none (mem : Blk → Option (List Val)) (p : Ptr) {x : Blk} (h : mem x = none) : fmem mem p x = none := by
  cases p with
  | none => exact h
  | some b =>
    simp only [fmem, upd]
    split
    · rfl
    · exact h

theorem gmem_ne (mem : Blk → Option (List Val)) (o l : Option Blk) (p : Ptr) (n : Nat) {x : Blk} (h1 : o ≠ some x) (h2 : l ≠ some x)
    (h : o = none → ∀ b, p = some b → x ≠ .heap b.id) : gmem mem o l p n x = mem x := by
  cases o with
  | none => exact fmem_ne _ _ (h rfl)
  | some b =>
    have hb : x ≠ b := fun e => h1 (by rw [e])
    simp only [gmem]
    rw [upd_ne _ _ ?_, upd_ne _ _ hb]
    cases l with
    | none => exact hb
    | some c => exact fun e => h2 (by rw [e]; rfl)

/-- src/decode.c:937-945 and the similar places. -/
def dGive (o l p n : Nat) : Stmt :=
  .ite (.cmp .ne (.loc o) .null)
    (.seq (.exp (.store .ptr (.loc o) (.load .ptr (.loc p)))) (.exp (.store (.int .u64) (.loc l) (.load (.int .u64) (.loc n)))))
    (.exp (.call "l8w8jwt_free" (.cons (.load .ptr (.loc p)) .nil)))

theorem wp_dGive (env : Env) (fuel d : Nat) {s : Sched} {fr : List Val} {heap h' : Heap} {mem : Blk → Option (List Val)} {stk o l p n i : Nat}
    {O L : Option Blk} (ho : fr.getD o .undef = optV O) (hl : fr.getD l .undef = optV L) (hp : fr.getD p .undef = .ptr (some (.stack i, 0)))
    (hn : fr.getD n .undef = .ptr (some (.stack (i + 1), 0))) {P : Ptr} {N : Nat} (mp : mem (.stack i) = some [ptrVal P])
    (mn : mem (.stack (i + 1)) = some [.int N]) (hN : N < 18446744073709551616)
    (hO : ∀ b, O = some b → b.own = true ∧ (∃ x, mem b = some [x]) ∧ b ≠ .stack (i + 1) ∧ L ≠ some b)
    (hL : ∀ b, L = some b → b.own = true ∧ (∃ x, mem b = some [x]) ∧ b ≠ .stack (i + 1)) (hOL : O ≠ none → L ≠ none)
    (hs : ∀ j, stk ≤ j → mem (.stack j) = none) {r : Option (Ptr × Nat)}
    (hr : giveOrFree O.isNone P N s heap = .ok (r, h')) {Q : Ctl → St → Prop}
    (hq : Q (.next .run) ⟨fr, h', gmem mem O L P N, stk⟩) : WP (exec (cx env fuel (d + 1)) (dGive o l p n) .run) s ⟨fr, heap, mem, stk⟩ Q := by
  unfold dGive
  unfold giveOrFree at hr
  cases O with
  | none =>
    obtain ⟨⟨⟩, g, hf, hr2⟩ := M.bind_inv hr
    cases hr2
    xs [ho, optV, Option.map_none]
    rw [hp]
    refine wp_loadV (c := cx env fuel (d + 1)) (l := [ptrVal P]) (by exact mp) (by omega) (by rfl) (asTy_ptrVal _ _) ?_
    xs []
    refine wp_l8freeP env fuel d hf hs ?_
    exact hq
  | some b =>
    cases hr
    cases L with
    | none => exact absurd rfl (hOL (by simp))
    | some c =>
      obtain ⟨b1, ⟨x, b2⟩, b3, b4⟩ := hO b rfl
      obtain ⟨c1, ⟨y, c2⟩, c3⟩ := hL c rfl
      have hcb : c ≠ b := fun e => b4 (by rw [e])
      xs [ho, optV, Option.map_some]
      rw [hp]
      refine wp_loadV (c := cx env fuel (d + 1)) (l := [ptrVal P]) (by exact mp) (by omega) (by rfl) (asTy_ptrVal _ _) ?_
      xs []
      rw [ho]
      simp only [optV, Option.map_some]
      refine wp_storeV b1 (l := [x]) (w := ptrVal P) (by exact b2) (by omega) (by simp) (by cases P <;> rfl) ?_
      xs []
      rw [hn, hl]
      refine wp_loadV (c := cx env fuel (d + 1)) (l := [.int N]) (by exact (cont_own rfl).trans ((upd_ne _ _ (Ne.symm b3)).trans mn)) (by omega) (by rfl) (asTy_u64 _ hN) ?_
      xs [optV, Option.map_some]
      refine wp_storeV c1 (l := [y]) (w := .int N) (by exact (upd_ne _ _ hcb).trans c2) (by omega) (by simp) (by rfl) ?_
      exact hq

theorem AtExit.out {m0 mem : Blk → Option (List Val)} {t0 k N : Nat} {D : DecState} {h : Heap} (a : AtExit m0 t0 k N D h mem) (ht : t0 ≤ h.tick)
    {x : Blk} (h1 : ∀ j, k ≤ j → x ≠ .stack j) (h2 : ∀ j, t0 ≤ j → x ≠ .heap j) (l : Option (List Val)) : AtExit (upd m0 x l) t0 k N D h (upd mem x l) := by
  have S : ∀ j, k ≤ j → upd mem x l (.stack j) = mem (.stack j) := fun j hj => upd_ne _ _ (Ne.symm (h1 j hj))
  have H : ∀ j, t0 ≤ j → upd mem x l (.heap j) = mem (.heap j) := fun j hj => upd_ne _ _ (Ne.symm (h2 j hj))
  exact {
    val := fun h => (S k (Nat.le_refl _)).trans (a.val h)
    segs := a.segs.frame (fun j hj _ => S j (by omega)) (fun b hb => H _ (a.segIds b hb).1)
    segIds := a.segIds
    hp := a.hp
    hs := a.hs
    ps := a.ps
    lens := a.lens
    buf := by obtain ⟨r, hr⟩ := a.buf; exact ⟨r, (S _ (by omega)).trans hr⟩
    arr := fun b hb => by
      obtain ⟨a1, a2, ⟨r, a3⟩, a4⟩ := a.arr b hb
      refine ⟨a1, a2, ⟨r, (H _ a1).trans a3⟩, fun c hc => ?_⟩
      obtain ⟨c1, c2, c3, c4, c5⟩ := a4 c hc
      exact ⟨c1, c2, c3, c4, fun e he => ⟨(H _ (a.ids c hc e he)).trans (c5 e he).1, (c5 e he).2⟩⟩
    ids := a.ids
    null := a.null
    stack := fun j hj => (S j (by omega)).trans (a.stack j hj)
    free := fun j hj => by
      rw [upd]
      split
      · rename_i e
        subst e
        exact absurd rfl (h2 j (by omega))
      · exact a.free j hj
    frame := fun y y1 y2 => by
      simp only [upd]
      split
      · rfl
      · exact a.frame y y1 y2
    wf := a.wf
    size := a.size }

theorem tidy_decodeBody (env : Env) (q : DecParams) : Tidy (decodeBody env q) := by
  unfold decodeBody
  refine Tidy.bind (Tidy.alloc _) fun blk => ?_
  split
  · exact Tidy.pure _
  · refine Tidy.bind (tidy_decodeSegments _) fun S => Tidy.ite (Tidy.pure _) (Tidy.bind (tidy_verifySignature _ _ _ _ _) fun rv => ?_)
    split
    refine Tidy.ite (Tidy.pure _) (Tidy.bind (tidy_parseClaims _ _ _ _) fun rc => ?_)
    split
    refine Tidy.ite (Tidy.pure _) (Tidy.bind (tidy_parseClaims _ _ _ _) fun rc => ?_)
    split
    exact Tidy.ite (Tidy.pure _) (Tidy.liftBind fun _ => Tidy.pure _)

theorem frees_mono {p : Ptr} {s : Sched} {h h' : Heap} (hr : free p s h = .ok ((), h')) (hw : HeapWf h) : HeapWf h' ∧ h'.tick = h.tick :=
  ⟨(Tidy.free p s h () h' hr hw).1, (free_ok hr).2.1⟩

/-- `l8w8jwt_free_claims(claims.array, claims.length)` -/
def dFreeClaims (i : Nat) : Stmt :=
  .exp (.call "l8w8jwt_free_claims" (.cons (.load .ptr (.loc i)) (.cons (.load (.int .u64) (.padd 1 (.loc i) (.num 1))) .nil)))

theorem wp_dFreeClaims (env : Env) (fuel d : Nat) {s : Sched} {fr : List Val} {heap h' : Heap} {mem : Blk → Option (List Val)} {stk i j : Nat} {a : ClaimArr}
    {r : List Val} (hf : fr.getD i .undef = .ptr (some (.stack j, 0))) (hm : mem (.stack j) = some (ptrVal a.blk :: .int a.items.length :: r))
    (ho : OwnedAt mem a) (hw : Wf ⟨fr, heap, mem, stk⟩) (hn : heap.live.Nodup) (hl : 5 * a.items.length < 18446744073709551616) (hfu : a.items.length < fuel)
    (hr : freeClaims a a.items.length s heap = .ok ((), h')) {Q : Ctl → St → Prop} (hq : Q (.next .run) ⟨fr, h', cmem mem a, stk⟩) :
    WP (exec (cx env fuel (d + 2)) (dFreeClaims i) .run) s ⟨fr, heap, mem, stk⟩ Q := by
  unfold dFreeClaims
  xs []
  rw [hf]
  refine wp_loadV (c := cx env fuel (d + 2)) (by exact hm) (by omega) (by rfl) (asTy_ptrVal _ _) ?_
  xs []
  rw [hf]
  refine wp_ld (c := cx env fuel (d + 2)) (v := .int a.items.length) (by exact hm) (by omega) (by rfl) (asTy_u64 _ (by omega)) ?_
  xs []
  rw [cx_fun _ _ _ (fn := l8w8jwt_free_claims) rfl]
  rw [wp_of_eq (free_claims_text env fuel d s ⟨fr, heap, mem, stk⟩ hw a a.items.length ho hn hl hfu h' hr)]
  exact hq

/-- src/decode.c:852-855 -/
def dDrop : Stmt := .ite (.lor (.cmp .eq (.loc 2) .null) (.cmp .ne (.loc 5) (.num 0))) (dFreeClaims 12) .skip

/-- What is left of `l8w8jwt_decode` behind `exit:`; src/decode.c:848-857. -/
def dTail : Stmt :=
  .seq (.exp (.call "l8w8jwt_free" (.cons (.load .ptr (.loc 6)) .nil))) (.seq (.exp (.call "l8w8jwt_free" (.cons (.load .ptr (.loc 8)) .nil)))
  (.seq (.exp (.call "l8w8jwt_free" (.cons (.load .ptr (.loc 10)) .nil)))
  (.seq dDrop (.ret (.loc 5)))))

/-- src/decode.c:837-846. -/
def dEnd : Stmt :=
  .seq (.exp (.store (.int .u32) (.loc 1) (.load (.int .u32) (.loc 4))))
  (.seq (.ite (.land (.cmp .ne (.loc 2) .null) (.cmp .ne (.loc 3) .null))
    (.seq (.exp (.store (.int .u64) (.loc 3) (.load (.int .u64) (.padd 1 (.loc 12) (.num 1)))))
      (.exp (.store .ptr (.loc 2) (.load .ptr (.loc 12))))) .skip)
  (.seq (.label "exit") dTail))

/-- src/decode.c:793-846. -/
def dMain : Stmt := dVars 6 (.seq (.declMem 12 5 [] .undef) (dCore 4 dEnd))

/-- src/decode.c:786-846. -/
def dOut : Stmt :=
  .seq (.ite (.cmp .eq (.loc 1) .null) (.ret (.num 100)) .skip) (.seq (.exp (.store (.int .u32) (.loc 1) (.cast .u32 (.num (-1))))) dMain)

/-- src/decode.c:780-846. -/
def dChecked : Stmt :=
  .seq (.exp (.set 5 (.call "l8w8jwt_validate_decoding_params" (.cons (.loc 0) .nil))))
    (.seq (.ite (.cmp .ne (.loc 5) (.num 0)) (.ret (.loc 5)) .skip) dOut)

/-- src/decode.c:779-846. -/
def dRest : Stmt := .seq (.declMem 4 1 [] .undef) (.seq (.exp (.store (.int .u32) (.loc 4) (.num 0))) dChecked)

/-- src/decode.c:771-858 in pieces. -/
theorem decode_body : l8w8jwt_decode.body =
    .seq (.ite (.lor (.cmp .eq (.loc 0) .null) (.land (.cmp .ne (.loc 2) .null) (.cmp .eq (.loc 3) .null))) (.ret (.num 100)) .skip) dRest := rfl

/-- What a call of `l8w8jwt_decode` leaves behind. -/
structure Decoded (fuel : Nat) (st : St) (O1 O2 O3 : Option Blk) (out : DecOut) (h' : Heap) (mem' : Blk → Option (List Val)) : Prop where
  kept : Kept [O1, O2, O3] st h' mem'
  validation : Wrote st.mem mem' O1 (out.validation.map fun v => .int v.toNat)
  claims : Wrote st.mem mem' O2 (out.claims.map fun a => ptrVal a.blk)
  length : Wrote st.mem mem' O3 (out.claimsLength.map fun n => .int n)
  array : ∀ a, out.claims = some a → ClaimsAt mem' (ptrVal a.blk) (some a.items) ∧ OwnedAt mem' a ∧
    a.items.length < fuel ∧ a.items.length < 8589934592 ∧ (∀ b, a.blk = some b → st.heap.tick ≤ b.id) ∧
    ∀ c ∈ a.items, ∀ b, (c.key = some b ∨ c.value = some b) → st.heap.tick ≤ b.id

/-- Behind `exit:`, with the out pointers written. -/
theorem wp_dTail (env : Env) (fuel d : Nat) {s : Sched} {st : St} {pv : Val} {O1 O2 O3 : Option Blk} {k N : Nat} {mB mem : Blk → Option (List Val)} {D : DecState}
    {h h' : Heap} {rv : Int} (hv : rv = D.rc) (hk : k = st.stk) (hw : Wf st) (a : AtExit mB st.heap.tick k N D h mem) (hN : N < fuel) (hN2 : N < 4294967296 * 2)
    (hb0 : D.rc = 0 → D.claims.blk ≠ none) {out : DecOut}
    (hr : (do
      free D.segs.header
      free D.segs.payload
      free D.segs.signature
      if O2.isNone || D.rc ≠ L8W8JWT_SUCCESS then do
        freeClaims D.claims D.claims.items.length
        pure { rc := D.rc, validation := some D.validation }
      else
        pure { rc := D.rc, validation := some D.validation, claims := some D.claims, claimsLength := some D.claims.items.length } : M DecOut) s h = .ok (out, h'))
    (hm : ∀ x, some x ∉ [O1, O2, O3] → mB x = st.mem x ∨ (∃ j, st.stk ≤ j ∧ x = .stack j))
    (ho1 : ∀ b, O1 = some b → mB b = some [.int D.validation.toNat])
    (ho2 : ∀ b, O2 = some b → mB b = if D.rc = 0 then some [ptrVal D.claims.blk] else st.mem b)
    (ho3 : ∀ b, O3 = some b → mB b = if D.rc = 0 ∧ O2 ≠ none then some [.int D.claims.items.length] else st.mem b)
    (old : ∀ b, some b ∈ [O1, O2, O3] → (∀ j, st.stk ≤ j → b ≠ .stack j) ∧ (∀ j, st.heap.tick ≤ j → b ≠ .heap j)) :
    WP (exec (cx env fuel (d + 3)) dTail .run) s
      ⟨[pv, optV O1, optV O2, optV O3, .ptr (some (.stack k, 0)), .int rv, .ptr (some (.stack (k + 1), 0)), .ptr (some (.stack (k + 2), 0)),
        .ptr (some (.stack (k + 3), 0)), .ptr (some (.stack (k + 4), 0)), .ptr (some (.stack (k + 5), 0)), .ptr (some (.stack (k + 6), 0)),
        .ptr (some (.stack (k + 7), 0))], h, mem, k + 8⟩
      (Return st fun v st' => v = .int out.rc ∧ ∃ mem', st' = { st with heap := h', mem := mem' } ∧ Decoded fuel st O1 O2 O3 out h' mem') := by
  subst hk
  subst hv
  obtain ⟨⟨⟩, h1, hf1, hr2⟩ := M.bind_inv hr
  obtain ⟨⟨⟩, h2, hf2, hr3⟩ := M.bind_inv hr2
  obtain ⟨⟨⟩, h3, hf3, hr4⟩ := M.bind_inv hr3
  obtain ⟨w1, t1⟩ := frees_mono hf1 a.wf
  obtain ⟨w2, t2⟩ := frees_mono hf2 w1
  obtain ⟨w3, t3⟩ := frees_mono hf3 w2
  unfold dTail
  xs []
  refine wp_loadV (c := cx env fuel (d + 3)) (l := [ptrVal D.segs.header]) (by exact a.segs.s0) (by omega) (by rfl) (asTy_ptrVal _ _) ?_
  xs []
  refine wp_l8freeP env fuel _ hf1 a.stack ?_
  xs []
  refine wp_loadV (c := cx env fuel (d + 3)) (l := [ptrVal D.segs.payload]) (by exact (cont_own rfl).trans ((fmem_stack _ _ _).trans a.segs.s2)) (by omega) (by rfl)
    (asTy_ptrVal _ _) ?_
  xs []
  refine wp_l8freeP env fuel _ hf2 (fun j hj => (fmem_stack _ _ _).trans (a.stack j hj)) ?_
  xs []
  refine wp_loadV (c := cx env fuel (d + 3)) (l := [ptrVal D.segs.signature])
    (by exact (cont_own rfl).trans ((fmem_stack _ _ _).trans ((fmem_stack _ _ _).trans a.segs.s4))) (by omega) (by rfl) (asTy_ptrVal _ _) ?_
  xs []
  refine wp_l8freeP env fuel _ hf3 (fun j hj => (fmem_stack _ _ _).trans ((fmem_stack _ _ _).trans (a.stack j hj))) ?_
  xs []
  have i1 : ∀ b, D.segs.header = some b → st.heap.tick ≤ b.id := fun b hb => (a.segIds b (Or.inl hb)).1
  have i2 : ∀ b, D.segs.payload = some b → st.heap.tick ≤ b.id := fun b hb => (a.segIds b (Or.inr (Or.inl hb))).1
  have i3 : ∀ b, D.segs.signature = some b → st.heap.tick ≤ b.id := fun b hb => (a.segIds b (Or.inr (Or.inr hb))).1
  have F : ∀ x, (∀ b, (D.segs.header = some b ∨ D.segs.payload = some b ∨ D.segs.signature = some b) → x ≠ .heap b.id) →
      fmem (fmem (fmem mem D.segs.header) D.segs.payload) D.segs.signature x = mem x := fun x hx => by
    rw [fmem_ne _ _ fun b hb => hx b (by simp [hb]), fmem_ne _ _ fun b hb => hx b (by simp [hb]), fmem_ne _ _ fun b hb => hx b (by simp [hb])]
  have Fn : ∀ x, mem x = none → fmem (fmem (fmem mem D.segs.header) D.segs.payload) D.segs.signature x = none :=
    fun x hx => fmem_none _ _ (fmem_none _ _ (fmem_none _ _ hx))
  obtain ⟨m3, hm3⟩ : ∃ m3, m3 = fmem (fmem (fmem mem D.segs.header) D.segs.payload) D.segs.signature := ⟨_, rfl⟩
  rw [← hm3] at F Fn
  simp only [← hm3]
  have Fo : ∀ x, (∀ j, st.heap.tick ≤ j → x ≠ .heap j) → (∀ j, st.stk ≤ j → x ≠ .stack j) → m3 x = mB x := fun x hx hy => by
    rw [F x fun b hb => hx _ (a.segIds b hb).1]
    exact a.frame x hy hx
  have A : ∀ b, D.claims.blk = some b → (∃ rest, m3 (.heap b.id) = some (D.claims.items.flatMap recCells ++ rest)) ∧ Held m3 b.id h.tick D.claims.items := by
    intro b hb
    obtain ⟨a1, a2, ⟨r, a3⟩, a4⟩ := a.arr b hb
    refine ⟨⟨r, (F _ fun c hc => by have := (a.segIds c hc).2.2.1 b hb; simp; omega).trans a3⟩, fun c hc => ?_⟩
    obtain ⟨c1, c2, c3, c4, c5⟩ := a4 c hc
    refine ⟨c1, c2, c3, c4, fun e he => ⟨(F _ fun g hg => ?_).trans (c5 e he).1, (c5 e he).2⟩⟩
    have := (a.segIds g hg).2.2.2 c hc e he
    simp
    omega
  have B : ∃ r, m3 (.stack (st.stk + 7)) = some (ptrVal D.claims.blk :: .int D.claims.items.length :: r) := by
    obtain ⟨r, hr⟩ := a.buf
    exact ⟨r, (F _ (by simp)).trans hr⟩
  obtain ⟨rb, hB⟩ := B
  have kept : ∀ mf, (∀ x, (∀ j, st.heap.tick ≤ j → x ≠ .heap j) → (∀ j, st.stk ≤ j → x ≠ .stack j) → mf x = mB x) → (∀ x, m3 x = none → mf x = none) →
      HeapWf h' → h.tick ≤ h'.tick → Kept [O1, O2, O3] st h' (dropStack st.stk mf) := fun mf f1 f2 f3 f4 => {
    same := fun x hx hy => by
      by_cases hj : ∃ j, st.stk ≤ j ∧ x = .stack j
      · obtain ⟨j, hj, rfl⟩ := hj
        rw [dropStack_lt _ _ _ hj]
        exact (hw.stack j hj).symm
      · have hz : ∀ j, st.stk ≤ j → x ≠ .stack j := fun j hj' e => hj ⟨j, hj', e⟩
        rw [dropStack_ne _ _ hz, f1 x hy hz]
        rcases hm x hx with e | e
        · exact e
        · exact absurd e hj
    stack := fun j hj => dropStack_lt _ _ _ hj
    free := fun j hj => (dropStack_ne _ _ (by simp)).trans (f2 _ (Fn _ (a.free j (by omega))))
    heap := f3 }
  have outs : ∀ mf, (∀ x, (∀ j, st.heap.tick ≤ j → x ≠ .heap j) → (∀ j, st.stk ≤ j → x ≠ .stack j) → mf x = mB x) →
      ∀ b, some b ∈ [O1, O2, O3] → dropStack st.stk mf b = mB b := fun mf f1 b hb => by
    rw [dropStack_ne _ _ (old b hb).1, f1 b (old b hb).2 (old b hb).1]
  by_cases hc : O2 = none ∨ D.rc ≠ 0
  · rw [if_pos (by simpa [L8W8JWT_SUCCESS] using hc)] at hr4
    obtain ⟨⟨⟩, h4, hfc, hr5⟩ := M.bind_inv hr4
    cases hr5
    obtain ⟨w4, t4⟩ := tidy_freeClaims _ _ _ _ _ _ hfc w3
    have hcond : ∀ (Q : Ctl → St → Prop) (S : St), S.fr.getD 2 .undef = optV O2 → S.fr.getD 5 .undef = .int D.rc →
        WP (exec (cx env fuel (d + 3)) (dFreeClaims 12) .run) s S Q → WP (exec (cx env fuel (d + 3)) dDrop .run) s S Q := by
      intro Q S q1 q2 hX
      unfold dDrop
      cases O2 with
      | none =>
        xs [q1, optV, Option.map_none]
        exact hX
      | some b =>
        have hne : ¬ (D.rc : Int) = 0 := by
          rcases hc with h | h
          · cases h
          · omega
        xs [q1, q2, optV, Option.map_some, hne]
        exact hX
    refine hcond _ _ rfl rfl ?_
    have := a.size
    refine wp_dFreeClaims env fuel (d + 1) rfl hB (held_owned A) ⟨fun j hj => Fn _ (a.stack j hj), fun j hj => Fn _ (a.free j (by simpa [t1, t2, t3] using hj))⟩ w3.nodup
      (by omega) (by omega) hfc ?_
    xs []
    have f1 : ∀ x, (∀ j, st.heap.tick ≤ j → x ≠ .heap j) → (∀ j, st.stk ≤ j → x ≠ .stack j) → cmem m3 D.claims x = mB x := fun x hx hy => by
      rw [cmem_ne _ _ fun i e => ⟨fun b hb e2 => ?_, fun c hc b hb e2 => ?_⟩]
      · exact Fo x hx hy
      · exact hx b.id (a.arr b hb).1 (by rw [e, e2])
      · exact hx b.id (a.ids c hc b hb) (by rw [e, e2])
    refine ⟨_, rfl, kept _ f1 (fun x hx => cmem_none _ _ hx) w4 (by omega), ?_, ?_, ?_, ?_⟩
    · intro b hb
      rw [outs _ f1 b (by simp [hb])]
      exact ho1 b hb
    · intro b hb
      rw [outs _ f1 b (by simp [hb]), ho2 b hb]
      rcases hc with hc | hc
      · rw [hc] at hb; cases hb
      · rw [if_neg hc]; rfl
    · intro b hb
      rw [outs _ f1 b (by simp [hb]), ho3 b hb, if_neg]
      · rfl
      · rintro ⟨c1, c2⟩
        rcases hc with hc | hc
        · exact c2 hc
        · exact hc c1
    · intro x hx
      cases hx
  · obtain ⟨hc1, hc2⟩ := not_or.mp hc
    have hc2 : D.rc = 0 := Classical.byContradiction hc2
    rw [if_neg (by simpa [L8W8JWT_SUCCESS] using hc)] at hr4
    cases hr4
    have hcond : ∀ (Q : Ctl → St → Prop) (S : St), S.fr.getD 2 .undef = optV O2 → S.fr.getD 5 .undef = .int D.rc →
        Q (.next .run) S → WP (exec (cx env fuel (d + 3)) dDrop .run) s S Q := by
      intro Q S q1 q2 hX
      unfold dDrop
      cases O2 with
      | none => exact absurd rfl hc1
      | some b =>
        rw [hc2] at q2
        xs [q1, q2, optV, Option.map_some]
        exact hX
    refine hcond _ _ rfl rfl ?_
    xs []
    have f1 := Fo
    have sub : ∀ x, (∀ j, st.stk ≤ j → x ≠ .stack j) → dropStack st.stk m3 x = m3 x := fun x hx => dropStack_ne _ _ hx
    refine ⟨_, rfl, kept _ f1 (fun x hx => hx) w3 (by omega), ?_, ?_, ?_, ?_⟩
    · intro b hb
      rw [outs _ f1 b (by simp [hb])]
      exact ho1 b hb
    · intro b hb
      rw [outs _ f1 b (by simp [hb]), ho2 b hb, if_pos hc2]
      rfl
    · intro b hb
      rw [outs _ f1 b (by simp [hb]), ho3 b hb, if_pos ⟨hc2, hc1⟩]
      rfl
    · intro x hx
      cases hx
      have A' : ∀ b, D.claims.blk = some b → (∃ rest, dropStack st.stk m3 (.heap b.id) = some (D.claims.items.flatMap recCells ++ rest)) ∧
          Held (dropStack st.stk m3) b.id h.tick D.claims.items := fun b hb =>
        ⟨by obtain ⟨r, hr⟩ := (A b hb).1; exact ⟨r, (sub _ (by simp)).trans hr⟩, (A b hb).2.frame (fun j _ _ => sub _ (by simp)) (Nat.le_refl _)⟩
      refine ⟨?_, held_owned A', by have := a.size; omega, by have := a.size; omega, fun b hb => (a.arr b hb).1, a.ids⟩
      cases hb : D.claims.blk with
      | none => exact absurd hb (hb0 hc2)
      | some b =>
        obtain ⟨r, hr⟩ := (A' b hb).1
        exact held_claimsAt hr (A' b hb).2

theorem ParamsAt.old {st : St} (hw : Wf st) {P : Blk} {q : DecParams} {w : DecPtrs} (hd : DecAt st.mem P q w) (b : Blk) (hb : Uses P w b) :
    (∀ j, st.stk ≤ j → b ≠ .stack j) ∧ (∀ j, st.heap.tick ≤ j → b ≠ .heap j) := by
  obtain ⟨l, hl⟩ := hd.known hb
  exact hw.old hl

theorem OutsAt.old {st : St} (hw : Wf st) {os : List (Option Blk)} (ho : OutsAt st.mem os) (b : Blk) (hb : some b ∈ os) :
    (∀ j, st.stk ≤ j → b ≠ .stack j) ∧ (∀ j, st.heap.tick ≤ j → b ≠ .heap j) := by
  obtain ⟨h1, x, h2⟩ := ho.cell b hb
  exact hw.old ((cont_own h1).trans h2)

theorem Kept.refl {os : List (Option Blk)} {st : St} (hw : Wf st) (hh : HeapWf st.heap) : Kept os st st.heap st.mem :=
  ⟨fun _ _ _ => rfl, hw.stack, hw.heap, hh⟩

theorem Wrote.nothing (mem : Blk → Option (List Val)) (o : Option Blk) : Wrote mem mem o none := fun _ _ => rfl

theorem wp_decode (env : Env) (fuel d : Nat)
    (hg : ∀ i, -2147483648 ≤ (env.garbage i).end_ ∧ (env.garbage i).end_ < 2147483648) {s : Sched} {st : St} (hw : Wf st) (hh : HeapWf st.heap)
    {params : Option DecParams} {pv : Val} {O1 O2 O3 : Option Blk} (hO : OutsAt st.mem [O1, O2, O3]) (hp : ParamsAt st.mem [O1, O2, O3] pv params)
    (hz : ∀ q m, params = some q → q.jwt = some m → 2 * m.length + 100 < fuel ∧ m.length + 16 < 2147483648 ∧ q.validateTypLength < fuel)
    {out : DecOut} {h' : Heap} (hr : decode env params O1.isNone O2.isNone O3.isNone s st.heap = .ok (out, h')) :
    WP (runFun (cx env fuel (d + 3)) l8w8jwt_decode [pv, optV O1, optV O2, optV O3]) s st fun v st' =>
      v = .int out.rc ∧ ∃ mem', st' = { st with heap := h', mem := mem' } ∧ Decoded fuel st O1 O2 O3 out h' mem' := by
  apply wp_runFun
  rw [decode_body]
  rw [show l8w8jwt_decode.slots - l8w8jwt_decode.params = 9 from rfl]
  simp only [List.replicate, List.cons_append, List.nil_append]
  obtain ⟨Qf, hQf⟩ : ∃ Qf : Val → St → Prop, Qf = fun v st' =>
    v = .int out.rc ∧ ∃ mem', st' = { st with heap := h', mem := mem' } ∧ Decoded fuel st O1 O2 O3 out h' mem' := ⟨_, rfl⟩
  simp only [← hQf]
  have early : ∀ rc, out = { rc := rc } → h' = st.heap → Qf (.int rc) st := by
    rintro rc rfl rfl
    rw [hQf]
    exact ⟨rfl, st.mem, rfl, Kept.refl hw hh, Wrote.nothing _ _, Wrote.nothing _ _, Wrote.nothing _ _, fun a ha => by cases ha⟩
  cases params with
  | none =>
    cases hp
    cases hr
    xs [dropStack_wf hw]
    exact early _ rfl rfl
  | some q =>
  obtain ⟨P, w, rfl, hd, hu⟩ := hp
  unfold decode at hr
  simp only at hr
  by_cases hbad : O2 ≠ none ∧ O3 = none
  · obtain ⟨hb2, hb3⟩ := hbad
    cases O2 with
    | none => exact absurd rfl hb2
    | some o2 =>
      subst hb3
      cases hr
      xs [dropStack_wf hw, optV, Option.map_some, Option.map_none]
      exact early _ rfl rfl
  have h23 : (!O2.isNone && O3.isNone) = false := by
    cases O2 <;> cases O3 <;> simp at hbad ⊢
  rw [h23] at hr
  simp only [Bool.false_eq_true, if_false] at hr
  have next : ∀ (Q : Ctl → St → Prop) (S : St), S.fr.getD 0 .undef = .ptr (some (P, 0)) → S.fr.getD 2 .undef = optV O2 → S.fr.getD 3 .undef = optV O3 →
      WP (exec (cx env fuel (d + 3)) dRest .run) s S Q → WP (exec (cx env fuel (d + 3)) (.seq (.ite (.lor (.cmp .eq (.loc 0) .null)
        (.land (.cmp .ne (.loc 2) .null) (.cmp .eq (.loc 3) .null))) (.ret (.num 100)) .skip) dRest) .run) s S Q := by
    intro Q S q0 q2 q3 hX
    cases O2 with
    | none =>
      xs [q0, q2, optV, Option.map_none]
      exact hX
    | some o2 =>
      cases O3 with
      | none => exact absurd ⟨by simp, rfl⟩ hbad
      | some o3 =>
        xs [q0, q2, q3, optV, Option.map_some]
        exact hX
  refine next _ _ rfl rfl rfl ?_
  unfold dRest
  refine wp_declZero (Or.inr rfl) (by simp) ?_
  unfold dChecked
  xs []
  have old := OutsAt.old hw hO
  have uold := ParamsAt.old hw hd
  refine wp_validate_params env fuel (d + 2) (fun j hj => ?_) (hd.frame (mem' := upd st.mem (.stack st.stk) (some [.int 0])) fun b hb => upd_ne _ _ ((uold b hb).1 _ (Nat.le_refl _))) ?_
  · have hj : st.stk + 1 ≤ j := hj
    exact (upd_ne _ _ (by simp; omega)).trans (hw.stack j (by omega))
  by_cases hv : validateDecodingParams env (some q) = 0
  case neg =>
    rw [if_pos (by simpa [L8W8JWT_SUCCESS] using hv)] at hr
    cases hr
    have hv' : ¬ (validateDecodingParams env (some q) : Int) = 0 := by omega
    xs [hv', dropStack_stack, dropStack_wf hw]
    exact early _ rfl rfl
  rw [if_neg (by simpa [L8W8JWT_SUCCESS] using hv)] at hr
  rw [hv]
  xs []
  unfold dOut
  cases O1 with
  | none =>
    cases hr
    xs [dropStack_stack, dropStack_wf hw, optV, Option.map_none]
    exact early _ rfl rfl
  | some o1 =>
  obtain ⟨⟨own1, x1, c1⟩, hO1⟩ := And.intro (hO.cell o1 (by simp)) (old o1 (by simp))
  xs [optV, Option.map_some]
  refine wp_storeV own1 (l := [x1]) (w := .int 4294967295) (by exact (upd_ne _ _ (hO1.1 _ (Nat.le_refl _))).trans c1) (by omega) (by simp) (by rfl) ?_
  xs []
  unfold dMain
  refine wp_dVars (by simp) ?_
  xs []
  obtain ⟨m0, hm0⟩ : ∃ m0, m0 = upd (vmem (upd (upd st.mem (.stack st.stk) (some [.int 0])) o1 (some [.int 4294967295])) (st.stk + 1)) (.stack (st.stk + 7))
    (some [.undef, .undef, .undef, .undef, .undef]) := ⟨_, rfl⟩
  show WP _ s ⟨[.ptr (some (P, 0)), optV (some o1), optV O2, optV O3, .ptr (some (.stack st.stk, 0)), .int 0, .ptr (some (.stack (st.stk + 1), 0)),
    .ptr (some (.stack (st.stk + 2), 0)), .ptr (some (.stack (st.stk + 3), 0)), .ptr (some (.stack (st.stk + 4), 0)), .ptr (some (.stack (st.stk + 5), 0)),
    .ptr (some (.stack (st.stk + 6), 0)), .ptr (some (.stack (st.stk + 7), 0))], st.heap, upd (vmem (upd (upd st.mem (.stack st.stk) (some [.int 0])) o1
      (some [.int 4294967295])) (st.stk + 1)) (.stack (st.stk + 7)) (some [.undef, .undef, .undef, .undef, .undef]), st.stk + 8⟩ _
  rw [← hm0]
  have n1 : ∀ j, st.stk ≤ j → Blk.stack j ≠ o1 := fun j hj => Ne.symm (hO1.1 j hj)
  have M : ∀ x, (∀ j, st.stk ≤ j → j < st.stk + 8 → x ≠ .stack j) → x ≠ o1 → m0 x = st.mem x := fun x hx ho => by
    rw [hm0, upd_ne _ _ (hx _ (by omega) (by omega)), vmem_other _ _ (fun j h1 h2 => hx j (by omega) (by omega)), upd_ne _ _ ho, upd_ne _ _ (hx _ (by omega) (by omega))]
  have Mo : m0 o1 = some [.int 4294967295] := by
    rw [hm0, upd_ne _ _ (hO1.1 _ (by omega)), vmem_other _ _ (fun j h1 h2 => hO1.1 j (by omega)), upd_same]
  have d12 : ∀ b, O2 = some b → b ≠ o1 := fun b e e2 => by
    have := (List.pairwise_cons.mp hO.diff).1 O2 (by simp) o1 rfl
    exact this (by rw [e, e2])
  have d13 : ∀ b, O3 = some b → b ≠ o1 := fun b e e2 => by
    have := (List.pairwise_cons.mp hO.diff).1 O3 (by simp) o1 rfl
    exact this (by rw [e, e2])
  have d23 : ∀ a b, O2 = some a → O3 = some b → b ≠ a := fun a b e e1 e2 => by
    have := (List.pairwise_cons.mp (List.pairwise_cons.mp hO.diff).2).1 O3 (by simp) a e
    exact this (by rw [e1, e2])
  cases hjw : q.jwt with
  | none => simp [validateDecodingParams, hjw] at hv
  | some jm =>
  obtain ⟨z1, z2, z3⟩ := hz q jm rfl hjw
  obtain ⟨D, h1, hb, hr2⟩ := L8w8jwt.C.M.bind_inv hr
  have hT := tidy_decodeBody _ _ _ _ _ _ hb hh
  have hmB : ∀ x, some x ∉ [some o1, O2, O3] → m0 x = st.mem x ∨ ∃ j, st.stk ≤ j ∧ x = .stack j := fun x hx => by
    by_cases hj : ∃ j, st.stk ≤ j ∧ x = .stack j
    · exact Or.inr hj
    · exact Or.inl (M x (fun j h1 _ e => hj ⟨j, h1, e⟩) (fun e => hx (by simp [e])))
  refine wp_core env fuel d (b := 4) (k := st.stk) (m := jm) (w := w) (q := q) ⟨by simp, by omega, rfl, rfl, rfl, rfl, rfl, rfl, rfl, rfl, rfl⟩ ?_ hh ?_ (fun b hb j hj => (uold b hb).1 j hj)
    ?_ ?_ ?_ ?_ ?_ ?_ ?_ (lb := [.undef, .undef, .undef, .undef, .undef]) ?_ rfl hjw z1 z2 z3 hg (validateDec_key hv) hb ?_ ?_
  · refine ⟨fun j hj => ?_, fun j hj => ?_⟩
    · have hj : st.stk + 8 ≤ j := hj
      exact (M _ (by simp; omega) (n1 j (by omega))).trans (hw.stack j (by omega))
    · exact (M _ (by simp) (Ne.symm (hO1.2 j hj))).trans (hw.heap j hj)
  · exact hd.frame fun b hb => M b (fun j h1 _ => (uold b hb).1 j h1) (fun e => hu b hb (by simp [e]))
  · rw [hm0, upd_ne _ _ (by simp), vmem_other _ _ (by intro j h1 h2; simp; omega), upd_ne _ _ (n1 _ (by omega)), upd_same]
  · rw [hm0]; simp [vmem, upd]
  · rw [hm0]; simp [vmem, upd]
  · rw [hm0]; simp [vmem, upd]
  · rw [hm0]; simp [vmem, upd]
  · rw [hm0]; simp [vmem, upd]
  · rw [hm0]; simp [vmem, upd]
  · rw [hm0, upd_same]
  · intro hrc mem' ha
    unfold dEnd
    xs []
    refine wp_loadV (c := cx env fuel (d + 3)) (by exact ha.val hrc) (by omega) (by rfl) (asTy_u32 _ D.validation.isLt) ?_
    xs [optV, Option.map_some]
    have hmo : mem' o1 = some [.int 4294967295] := (ha.frame o1 hO1.1 hO1.2).trans Mo
    refine wp_storeV own1 (l := [.int 4294967295]) (w := .int D.validation.toNat) (by exact hmo) (by omega) (by simp) (by rfl) ?_
    have ha1 := ha.out hT.2 hO1.1 hO1.2 (some [.int D.validation.toNat])
    cases O2 with
    | none =>
      xs [optV, Option.map_none]
      rw [hQf]
      refine wp_dTail env fuel d (by omega) rfl hw ha1 (O1 := some o1) (O2 := none) (O3 := O3) (by omega) (by omega) (decodeBody_blk hb) hr2 ?_ ?_ ?_ ?_ old
      · intro x hx
        rw [upd_ne _ _ fun e => hx (by simp [e])]
        exact hmB x hx
      · rintro b e
        cases e
        exact upd_same _ _ _
      · intro b e
        cases e
      · intro b e
        rw [if_neg (by simp), upd_ne _ _ (d13 b e), M b (fun j h1 _ => (old b (by simp [e])).1 j h1) (d13 b e)]
    | some o2 =>
      cases O3 with
      | none => exact absurd ⟨by simp, rfl⟩ hbad
      | some o3 =>
      obtain ⟨⟨own2, x2, c2⟩, hO2⟩ := And.intro (hO.cell o2 (by simp)) (old o2 (by simp))
      obtain ⟨⟨own3, x3, c3⟩, hO3⟩ := And.intro (hO.cell o3 (by simp)) (old o3 (by simp))
      have e21 := d12 o2 rfl
      have e31 := d13 o3 rfl
      have e32 := d23 o2 o3 rfl rfl
      obtain ⟨rb, hbuf⟩ := ha.buf
      have hlen : D.claims.items.length < 18446744073709551616 := by have := ha.size; omega
      have hb1 : upd mem' o1 (some [.int D.validation.toNat]) (.stack (st.stk + 7)) = some (ptrVal D.claims.blk :: .int D.claims.items.length :: rb) :=
        (upd_ne _ _ (n1 _ (by omega))).trans hbuf
      xs [optV, Option.map_some]
      refine wp_ld (c := cx env fuel (d + 3)) (v := .int D.claims.items.length) (by exact hb1) (by omega) (by rfl) (asTy_u64 _ hlen) ?_
      xs []
      refine wp_storeV own3 (l := [x3]) (w := .int D.claims.items.length) (by exact (upd_ne _ _ e31).trans ((ha.frame o3 hO3.1 hO3.2).trans ((M o3 (fun j h1 _ => hO3.1 j h1) e31).trans c3)))
        (by omega) (by simp) (by rfl) ?_
      xs []
      refine wp_loadV (c := cx env fuel (d + 3)) (by exact (cont_own rfl).trans ((upd_ne _ _ (Ne.symm (hO3.1 _ (by omega)))).trans hb1)) (by omega) (by rfl) (asTy_ptrVal _ _) ?_
      xs []
      refine wp_storeV own2 (l := [x2]) (w := ptrVal D.claims.blk) (by exact (upd_ne _ _ (Ne.symm e32)).trans ((upd_ne _ _ e21).trans ((ha.frame o2 hO2.1 hO2.2).trans
        ((M o2 (fun j h1 _ => hO2.1 j h1) e21).trans c2)))) (by omega) (by simp) (by cases D.claims.blk <;> rfl) ?_
      xs []
      rw [hQf]
      have ha2 := (ha1.out hT.2 hO3.1 hO3.2 (some [.int D.claims.items.length])).out hT.2 hO2.1 hO2.2 (some [ptrVal D.claims.blk])
      refine wp_dTail env fuel d (by omega) rfl hw ha2 (O1 := some o1) (O2 := some o2) (O3 := some o3) (by omega) (by omega) (decodeBody_blk hb) hr2 ?_ ?_ ?_ ?_ old
      · intro x hx
        rw [upd_ne _ _ fun e => hx (by simp [e]), upd_ne _ _ fun e => hx (by simp [e]), upd_ne _ _ fun e => hx (by simp [e])]
        exact hmB x hx
      · rintro b e
        cases e
        rw [upd_ne _ _ (Ne.symm e21), upd_ne _ _ (Ne.symm e31), upd_same]
      · rintro b e
        cases e
        rw [if_pos hrc, upd_same]
      · rintro b e
        cases e
        rw [if_pos ⟨hrc, by simp⟩, upd_ne _ _ e32, upd_same]
  · intro hrc mem' ha
    unfold dEnd
    xs []
    rw [hQf]
    refine wp_dTail env fuel d rfl rfl hw ha (O1 := some o1) (O2 := O2) (O3 := O3) (by omega) (by omega) (decodeBody_blk hb) hr2 hmB ?_ ?_ ?_ old
    · rintro b e
      cases e
      rw [decodeBody_fail hb hrc]
      exact Mo
    · intro b e
      rw [if_neg hrc, M b (fun j h1 _ => (old b (by simp [e])).1 j h1) (d12 b e)]
    · intro b e
      rw [if_neg (fun h => hrc h.1), M b (fun j h1 _ => (old b (by simp [e])).1 j h1) (d13 b e)]

end L8w8jwt.C
