import Verif.C.BufProof
import Verif.Model.Claim
/-!
# The text of src/claim.c does what Model/Claim.lean says
-/

namespace L8w8jwt.C

open Src

/-- The cells of a `struct l8w8jwt_claim` from position `i` on. -/
def ClaimCells (mem : Blk → Option (List Val)) (l : List Val) (i : Nat) (c : Claim) : Prop :=
  ∃ kv vv, l[i]? = some kv ∧ l[i + 1]? = some (.int c.keyLength) ∧ l[i + 2]? = some vv ∧ l[i + 3]? = some (.int c.valueLength) ∧
    l[i + 4]? = some (.int c.type) ∧ Pts globs mem kv c.key.bytes ∧ Pts globs mem vv c.value.bytes ∧
    c.keyLength < 18446744073709551616 ∧ c.valueLength < 18446744073709551616 ∧ -2147483648 ≤ c.type ∧ c.type < 2147483648

/-- An array of claims at `p`; `none`: NULL. -/
def ClaimsAt (mem : Blk → Option (List Val)) (p : Val) (claims : Option (List Claim)) : Prop :=
  match claims with
  | none => p = .ptr none
  | some cs => ∃ (b : Blk) (o : Nat) (l : List Val), p = .ptr (some (b, (o : Int))) ∧ cont globs mem b = some l ∧
      o + 5 * cs.length ≤ l.length ∧ ∀ i c, cs[i]? = some c → ClaimCells mem l (o + 5 * i) c

theorem asTy_pts {g : String → Option (List Val)} {mem : Blk → Option (List Val)} {v : Val} {m : Option Bytes} (cs : Bool)
    (h : Pts g mem v m) : asTy cs .ptr v = .ok v := by
  cases m with
  | none => cases h; rfl
  | some l => obtain ⟨b, o, c, rfl, -⟩ := h; rfl

theorem wp_strncmp (env : Env) (fuel d : Nat) {p q : Val} {n : Nat} {s : Sched} {st : St} {m1 m2 : Bytes} {r : Int} {Q : Val → St → Prop}
    (h1 : Pts globs st.mem p (some m1)) (h2 : Pts globs st.mem q (some m2)) (hn : n ≠ 0) (hr : strncmp m1 m2 n = .ok r)
    (hq : Q (.int r) st) :
    WP ((cx env fuel d).call "strncmp" [p, q, .int n]) s st Q := by
  obtain ⟨b1, o1, c1, rfl, h1, ho1, hl1⟩ := h1
  obtain ⟨b2, o2, c2, rfl, h2, ho2, hl2⟩ := h2
  rw [cx_lib _ _ _ rfl]
  refine ⟨_, _, ?_, hq⟩
  show (if (n : Int) = 0 then pure (Val.int 0) else do
      let a ← bytesAt (lctx env) (.ptr (some (b1, (o1 : Int))))
      let b ← bytesAt (lctx env) (.ptr (some (b2, (o2 : Int))))
      let r ← X.res (strncmp a b (n : Int).toNat)
      pure (.int r) : X Val) s st = _
  rw [if_neg (by omega)]
  have e1 : bytesAt (lctx env) (.ptr (some (b1, (o1 : Int)))) s st = .ok (m1, st) := by
    simp only [bytesAt, X.bind_apply, obj_cont (c := lctx env) h1]
    rw [if_neg (by omega), X.pure_apply, ← hl1]
    rfl
  have e2 : bytesAt (lctx env) (.ptr (some (b2, (o2 : Int)))) s st = .ok (m2, st) := by
    simp only [bytesAt, X.bind_apply, obj_cont (c := lctx env) h2]
    rw [if_neg (by omega), X.pure_apply, ← hl2]
    rfl
  simp only [X.bind_apply, e1, e2, Int.toNat_natCast, hr, X.res_ok, X.pure_apply]

/-- The address of the claim with the given index in the array at `p`; NULL if there is none. -/
def claimPtr (p : Val) (r : Option Nat) : Val :=
  match r, p with
  | some i, .ptr (some (b, o)) => .ptr (some (b, o + 5 * i))
  | _, _ => .ptr none

/-- src/claim.c:176-188: the text of `l8w8jwt_get_claim` returns the address of the claim with the index that `getClaim` says, and
changes nothing. -/
theorem get_claim_text (env : Env) (fuel d : Nat) (s : Sched) (st : St) (hw : Wf st) (p1 p3 : Val) (claims : Option (List Claim))
    (key : Option Bytes) (n k : Nat) (h1 : ClaimsAt st.mem p1 claims) (h3 : Pts globs st.mem p3 key)
    (hn : ∀ cs, claims = some cs → n ≤ cs.length) (r : Option Nat)
    (hr : getClaim claims n key k = .ok r) (hf : n < fuel) :
    runFun (cx env fuel d) l8w8jwt_get_claim [p1, .int n, p3, .int k] s st =
      .ok (claimPtr p1 r, st) := by
  apply run_of_wp
  apply wp_runFun
  simp only [l8w8jwt_get_claim, Nat.reduceSub, List.replicate, List.cons_append, List.nil_append]
  cases claims with
  | none =>
    obtain rfl : p1 = .ptr none := h1
    cases hr
    xs [dropStack_wf hw]
    rfl
  | some cs =>
  obtain ⟨b1, o1, l1, rfl, h1, hl1, hc⟩ := h1
  cases key with
  | none =>
    obtain rfl : p3 = .ptr none := h3
    cases hr
    xs [dropStack_wf hw]
    rfl
  | some m3 =>
  have hnl := hn cs rfl
  have hp3 : ∃ q, p3 = .ptr (some q) := by
    obtain ⟨b, o, c, rfl, -⟩ := h3
    exact ⟨_, rfl⟩
  obtain ⟨q3, rfl⟩ := hp3
  simp only [getClaim] at hr
  split at hr
  · rename_i h0
    cases hr
    by_cases h0' : n = 0
    · xs [dropStack_wf hw, h0']
      rfl
    · have : k = 0 := by omega
      xs [dropStack_wf hw, h0', this]
      rfl
  rename_i h0
  xs [dropStack_wf hw]
  unfold l8w8jwt_get_claim.loop1
  refine wp_loop (fun m st' => ∃ (i : Nat), m = n - i ∧ i ≤ n ∧
    st' = ⟨[.ptr (some (b1, o1)), .int n, .ptr (some q3), .int k, .ptr (some (b1, (o1 + 5 * i : Nat)))], st.heap, st.mem, st.stk⟩ ∧
    ∃ r', getClaimLoop m3 k (cs.drop i) (n - i) = .ok r' ∧ r = r'.map (· + i)) n ?_
    ⟨0, by simp, by omega, by simp, r, by simpa using hr, by cases r <;> rfl⟩ hf
  rintro m st' ⟨i, rfl, hi, rfl, r', hloop, hrr⟩
  xs []
  xpadd
  · omega
  · omega
  by_cases hin : i = n
  · subst hin
    rw [Nat.sub_self] at hloop
    simp only [getClaimLoop] at hloop
    cases hloop
    subst hrr
    xs [dropStack_wf hw]
    rfl
  obtain ⟨j, hj⟩ : ∃ j, n - i = j + 1 := ⟨n - i - 1, by omega⟩
  have hlt : i < cs.length := by omega
  have hci := List.getElem?_eq_getElem hlt
  rw [List.drop_eq_getElem_cons hlt, hj] at hloop
  obtain ⟨kv, vv, c1, -, -, -, -, c2, -, -, -, -, -⟩ := hc i _ hci
  generalize cs[i] = c at hloop c1 c2
  xs []
  refine wp_loadV h1 (v := kv) (by omega) (by rw [Int.toNat_natCast]; exact c1) (asTy_pts _ c2) ?_
  xs []
  simp only [getClaimLoop, bind, Except.bind] at hloop
  cases hkb : c.key.bytes with
  | none => rw [hkb] at hloop; simp [deref] at hloop
  | some mk =>
  rw [hkb] at hloop c2
  simp only [deref] at hloop
  cases hcmp : strncmp mk m3 k with
  | error e => rw [hcmp] at hloop; cases hloop
  | ok x =>
  rw [hcmp] at hloop
  refine wp_strncmp env fuel d c2 h3 (by omega) hcmp ?_
  by_cases hx : x = 0
  · simp only [hx, if_true] at hloop
    cases hloop
    subst hrr
    xs [dropStack_wf hw, hx]
    simp only [claimPtr, Option.map_some, Nat.zero_add]
    xeq
  · simp only [hx, if_false] at hloop
    cases hrest : getClaimLoop m3 k (cs.drop (i + 1)) j with
    | error e => rw [hrest] at hloop; cases hloop
    | ok r2 =>
    rw [hrest] at hloop
    cases hloop
    xs [dropStack_wf hw, hx]
    xpadd
    · omega
    · omega
    xs []
    refine ⟨n - (i + 1), by omega, i + 1, rfl, by omega, ?_, r2, ?_, ?_⟩
    · xeq
    · rw [← hrest]; congr 1
      omega
    · rw [hrr]
      cases r2 with
      | none => rfl
      | some x => simp only [Option.map_some]; congr 1; omega

/-! ## l8w8jwt_free_claims -/

/-- Memory after `mbedtls_platform_zeroize(P, n)`. -/
def zmem (mem : Blk → Option (List Val)) (P : Ptr) (n : Nat) : Blk → Option (List Val) :=
  match P with
  | none => mem
  | some b => if n = 0 then mem else upd mem (.heap b.id) ((mem (.heap b.id)).map fun l => poke l 0 (List.replicate n (.int 0)))

/-- Memory after `free(P)`. -/
def fmem (mem : Blk → Option (List Val)) (P : Ptr) : Blk → Option (List Val) :=
  match P with
  | none => mem
  | some b => upd mem (.heap b.id) none

/-- The block of `P` is there, with at least the given content. -/
def Has (mem : Blk → Option (List Val)) (P : Ptr) : Prop :=
  ∀ b, P = some b → ∃ l, mem (.heap b.id) = some l ∧ b.mem.length ≤ l.length

theorem wp_zeroize (env : Env) (fuel d : Nat) {P : Ptr} {n : Nat} {s : Sched} {st : St} {Q : Val → St → Prop}
    (hP : Has st.mem P) (hz : zeroize P n = .ok ()) (hq : Q .undef { st with mem := zmem st.mem P n }) :
    WP ((cx env fuel d).call "mbedtls_platform_zeroize" [ptrVal P, .int n]) s st Q := by
  rw [cx_lib _ _ _ rfl]
  refine ⟨_, _, ?_, hq⟩
  show (if (n : Int) = 0 then pure Val.undef else do
      let _ ← writeCells (lctx env) (ptrVal P) (List.replicate (n : Int).toNat (.int 0))
      pure .undef : X Val) s st = _
  by_cases hn : n = 0
  · subst hn
    cases P <;> rfl
  · rw [if_neg (by omega)]
    simp only [zeroize, hn, if_false] at hz
    cases P with
    | none => cases hz
    | some b =>
      simp only at hz
      split at hz
      · rename_i hl
        obtain ⟨l, h1, h2⟩ := hP b rfl
        simp only [X.bind_apply, ptrVal, writeCells, obj_own (c := lctx env) (b := .heap b.id) rfl h1, List.length_replicate, Int.toNat_natCast]
        rw [if_pos ⟨by omega, by simp; omega⟩, setObj_own rfl]
        simp [X.pure_apply, zmem, hn, h1, poke]
      · cases hz

theorem wp_l8freeP (env : Env) (fuel d : Nat) {P : Ptr} {s : Sched} {st : St} {h' : Heap} {Q : Val → St → Prop}
    (hf : free P s st.heap = .ok ((), h')) (hs : ∀ j, st.stk ≤ j → st.mem (.stack j) = none)
    (hq : Q .undef { st with heap := h', mem := fmem st.mem P }) :
    WP ((cx env fuel (d + 1)).call "l8w8jwt_free" [ptrVal P]) s st Q := by
  cases P with
  | none =>
    cases hf
    rw [cx_fun _ _ _ (fn := l8w8jwt_free) rfl]
    apply wp_runFun
    simp only [l8w8jwt_free, Nat.reduceSub, List.replicate, List.append_nil, ptrVal]
    xs []
    rw [cx_lib _ _ _ rfl]
    show WP (xFree (.ptr none)) s _ _
    refine ⟨_, _, rfl, ?_⟩
    simp only [return_next, dropStack_none hs]
    exact hq
  | some b =>
    simp only [free] at hf
    split at hf
    · rename_i hm
      cases hf
      exact wp_l8free env fuel d hm hs hq
    · cases hf

/-- The objects with numbers in `ids` are gone. -/
def kill (ids : List Nat) (mem : Blk → Option (List Val)) : Blk → Option (List Val)
  | .heap i => if i ∈ ids then none else mem (.heap i)
  | b => mem b

/-- The blocks that belong to claims. -/
def ownedIds (cs : List Claim) : List Nat := cs.flatMap fun c => (c.key.toList ++ c.value.toList).map Block.id

/-- The cells of a claim that owns its strings. -/
def OwnCells (mem : Blk → Option (List Val)) (l : List Val) (i : Nat) (c : Claim) : Prop :=
  l[i]? = some (ptrVal c.key) ∧ l[i + 1]? = some (.int c.keyLength) ∧ l[i + 2]? = some (ptrVal c.value) ∧
    l[i + 3]? = some (.int c.valueLength) ∧ Has mem c.key ∧ Has mem c.value ∧
    c.keyLength < 18446744073709551616 ∧ c.valueLength < 18446744073709551616

/-- One iteration on memory. -/
theorem claim_freed {ids : List Nat} {mem : Blk → Option (List Val)} {c : Claim} :
    fmem (fmem (zmem (zmem (kill ids mem) c.key c.keyLength) c.value c.valueLength) c.key) c.value = kill (ids ++ ownedIds [c]) mem := by
  funext b
  cases b with
  | heap j =>
    cases hk : c.key <;> cases hv : c.value <;>
      simp only [fmem, zmem, kill, ownedIds, hk, hv, upd, List.flatMap_cons, List.flatMap_nil, Option.toList, List.map_cons, List.map_nil,
        List.nil_append, List.append_nil, List.cons_append, List.mem_append, List.mem_cons, List.not_mem_nil, or_false, Blk.heap.injEq] <;>
      (repeat' split) <;> simp_all [upd, kill]
  | _ =>
    cases hk : c.key <;> cases hv : c.value <;> simp only [fmem, zmem, kill, upd, reduceCtorEq, ite_false] <;>
      (repeat' split) <;> simp_all [upd, kill]

theorem free_ok {P : Ptr} {s : Sched} {h h' : Heap} (hf : free P s h = .ok ((), h')) :
    (∀ b, P = some b → b.id ∈ h.live) ∧ h'.tick = h.tick ∧
      ∀ i, i ∈ h'.live → i ∈ h.live := by
  cases P with
  | none => cases hf; simp
  | some b =>
    simp only [free] at hf
    split at hf
    · rename_i hm
      cases hf
      refine ⟨?_, rfl, fun i => List.mem_of_mem_erase⟩
      rintro _ ⟨⟩
      exact hm
    · cases hf

theorem free_nodup {P : Ptr} {s : Sched} {h h' : Heap} (hf : free P s h = .ok ((), h')) (hn : h.live.Nodup) :
    h'.live.Nodup ∧ ∀ b, P = some b → b.id ∉ h'.live := by
  cases P with
  | none => cases hf; simp [hn]
  | some b =>
    simp only [free] at hf
    split at hf
    · cases hf
      refine ⟨hn.erase _, ?_⟩
      rintro _ ⟨⟩
      exact fun h => (List.Nodup.mem_erase_iff hn).mp h |>.1 rfl
    · cases hf

theorem freeClaimsLoop_inv {c : Claim} {cs : List Claim} {s : Sched} {h h' : Heap} (hf : freeClaimsLoop (c :: cs) s h = .ok ((), h')) :
    zeroize c.key c.keyLength = .ok () ∧ zeroize c.value c.valueLength = .ok () ∧
      ∃ h1 h2, free c.key s h = .ok ((), h1) ∧ free c.value s h1 = .ok ((), h2) ∧ freeClaimsLoop cs s h2 = .ok ((), h') := by
  simp only [freeClaimsLoop, bind, M.bind, M.lift] at hf
  cases e1 : zeroize c.key c.keyLength with
  | error e => simp [e1] at hf
  | ok x1 =>
  cases e2 : zeroize c.value c.valueLength with
  | error e => simp [e1, e2] at hf
  | ok x2 =>
  simp only [e1, e2] at hf
  cases e3 : free c.key s h with
  | error e => simp [e3] at hf
  | ok x3 =>
  obtain ⟨x3, h1⟩ := x3
  simp only [e3] at hf
  cases e4 : free c.value s h1 with
  | error e => simp [e4] at hf
  | ok x4 =>
  obtain ⟨x4, h2⟩ := x4
  simp only [e4] at hf
  exact ⟨rfl, rfl, h1, h2, rfl, e4, hf⟩

theorem freeClaimsLoop_live {cs : List Claim} {s : Sched} {h h' : Heap} (hf : freeClaimsLoop cs s h = .ok ((), h')) :
    ∀ i, i ∈ h'.live → i ∈ h.live := by
  induction cs generalizing h with
  | nil => cases hf; exact fun _ h => h
  | cons c t ih =>
    obtain ⟨-, -, h1, h2, e1, e2, e3⟩ := freeClaimsLoop_inv hf
    exact fun i hi => (free_ok e1).2.2 i ((free_ok e2).2.2 i (ih e3 i hi))

theorem kill_stack (ids : List Nat) (mem : Blk → Option (List Val)) (j : Nat) : kill ids mem (.stack j) = mem (.stack j) := rfl

theorem zmem_stack (mem : Blk → Option (List Val)) (P : Ptr) (n j : Nat) : zmem mem P n (.stack j) = mem (.stack j) := by
  cases P <;> simp only [zmem]
  split <;> simp [upd]

theorem fmem_stack (mem : Blk → Option (List Val)) (P : Ptr) (j : Nat) : fmem mem P (.stack j) = mem (.stack j) := by
  cases P <;> simp [fmem, upd]

theorem zmem_heap (mem : Blk → Option (List Val)) (P : Ptr) (n j : Nat) (h : ∀ b, P = some b → b.id ≠ j) :
    zmem mem P n (.heap j) = mem (.heap j) := by
  cases P with
  | none => rfl
  | some b =>
    simp only [zmem]
    split
    · rfl
    · rw [upd_ne]
      intro e
      cases e
      exact h b rfl rfl

theorem fmem_heap (mem : Blk → Option (List Val)) (P : Ptr) (j : Nat) (h : ∀ b, P = some b → b.id ≠ j) :
    fmem mem P (.heap j) = mem (.heap j) := by
  cases P with
  | none => rfl
  | some b =>
    simp only [fmem]
    rw [upd_ne]
    intro e
    cases e
    exact h b rfl rfl

theorem asTy_ptrVal (cs : Bool) (P : Ptr) : asTy cs .ptr (ptrVal P) = .ok (ptrVal P) := by cases P <;> rfl

/-- What `l8w8jwt_free_claims` needs to know about memory: the array, at the address of its block, and its claims, which own their
strings. -/
def OwnedAt (mem : Blk → Option (List Val)) (a : ClaimArr) : Prop :=
  ∀ b, a.blk = some b → ∃ l, mem (.heap b.id) = some l ∧ 5 * a.items.length ≤ l.length ∧
    ∀ i c, a.items[i]? = some c → OwnCells mem l (5 * i) c

/-- src/claim.c:30-57: the text of `l8w8jwt_free_claims`: every block that belongs to the first `n` claims, and the array, are freed (each
exactly once), nothing else in memory changes. -/
theorem free_claims_text (env : Env) (fuel d : Nat) (s : Sched) (st : St) (hw : Wf st) (a : ClaimArr) (n : Nat)
    (hm : OwnedAt st.mem a) (hd : st.heap.live.Nodup) (hn : 5 * n < 18446744073709551616) (hf : n < fuel) (h' : Heap)
    (hr : freeClaims a n s st.heap = .ok ((), h')) :
    runFun (cx env fuel (d + 1)) l8w8jwt_free_claims [ptrVal a.blk, .int n] s st =
      .ok (.undef, { st with heap := h', mem := match a.blk with | none => st.mem | some b => kill (ownedIds (a.items.take n) ++ [b.id]) st.mem }) := by
  apply run_of_wp
  apply wp_runFun
  simp only [l8w8jwt_free_claims, Nat.reduceSub, List.replicate, List.cons_append, List.nil_append]
  cases ha : a.blk with
  | none =>
    simp only [freeClaims, ha] at hr
    cases hr
    simp only [ptrVal]
    xs [dropStack_wf hw]
  | some A =>
  obtain ⟨l, hA, hAl, hc⟩ := hm A ha
  simp only [freeClaims, ha, bind, M.bind, M.lift] at hr
  cases e1 : rdN a.items n with
  | error e => simp [e1] at hr
  | ok cs =>
  simp only [e1] at hr
  cases e2 : freeClaimsLoop cs s st.heap with
  | error e => simp [e2] at hr
  | ok x =>
  obtain ⟨x, hN⟩ := x
  simp only [e2] at hr
  have hnl : n ≤ a.items.length ∧ cs = a.items.take n := by
    unfold rdN at e1
    split at e1
    · cases e1; exact ⟨by assumption, rfl⟩
    · cases e1
  obtain ⟨hnl, rfl⟩ := hnl
  have hAN : A.id ∈ hN.live := (free_ok hr).1 A rfl
  simp only [ptrVal]
  xs []
  unfold l8w8jwt_free_claims.loop1
  refine wp_loop (fun m st' => ∃ (i : Nat) (h : Heap), m = n - i ∧ i ≤ n ∧
    st' = ⟨[.ptr (some (.heap A.id, 0)), .int n, .ptr (some (.heap A.id, (5 * i : Nat)))], h, kill (ownedIds (a.items.take i)) st.mem, st.stk⟩ ∧
    freeClaimsLoop ((a.items.take n).drop i) s h = .ok ((), hN) ∧ h.live.Nodup ∧ ∀ j ∈ ownedIds (a.items.take i), j ∉ h.live) n ?_
    ⟨0, st.heap, by simp, by omega, ?_, e2, hd, by simp [ownedIds]⟩ hf
  case' refine_2 =>
    xeq
    funext b
    cases b <;> simp [kill, ownedIds]
  rintro m st' ⟨i, h, rfl, hi, rfl, hloop, hdup, hdead⟩
  have hAi : A.id ∈ h.live := freeClaimsLoop_live hloop _ hAN
  have hAm : kill (ownedIds (a.items.take i)) st.mem (.heap A.id) = some l := by
    simp only [kill]
    rw [if_neg (fun hx => hdead _ hx hAi)]
    exact hA
  xs []
  refine wp_paddV (b := .heap A.id) (l := l) ?_ (by omega) (by omega) ?_
  · exact hAm
  by_cases hin : i = n
  · subst hin
    rw [List.drop_of_length_le (by simp; omega)] at hloop
    cases hloop
    have hfin : ∀ (k : Nat), dropStack st.stk (fmem (zmem (kill (ownedIds (a.items.take i)) st.mem) (some ⟨A.id, List.replicate (5 * i) 0⟩) k) (some A)) =
        kill (ownedIds (a.items.take i) ++ [A.id]) st.mem := by
      intro k
      rw [dropStack_none (by intro j hj; rw [fmem_stack, zmem_stack]; exact hw.stack j hj)]
      funext b
      cases b with
      | heap j =>
        simp only [fmem, zmem, kill, upd, Blk.heap.injEq, List.mem_append, List.mem_singleton]
        (repeat' split) <;> simp_all [upd, kill]
      | _ =>
        simp only [fmem, zmem, kill, upd, reduceCtorEq, ite_false] <;> (repeat' split) <;> simp_all [upd, kill]
    have hstk : ∀ (k : Nat), ∀ j, st.stk ≤ j → zmem (kill (ownedIds (a.items.take i)) st.mem) (some ⟨A.id, List.replicate (5 * i) 0⟩) k (.stack j) = none := by
      intro k j hj
      rw [zmem_stack]
      exact hw.stack j hj
    by_cases hi0 : i = 0
    · xs [hi0]
      subst hi0
      refine wp_l8freeP (P := some A) env fuel d hr (hstk 0) ?_
      xs []
      exact congrArg (fun m => (⟨st.fr, h', m, st.stk⟩ : St)) (hfin 0)
    · xs [hi0]
      rw [show (i : Int) * 5 = ((5 * i : Nat) : Int) by omega]
      refine wp_zeroize env fuel (d + 1) (P := some ⟨A.id, List.replicate (5 * i) 0⟩) ?_ ?_ ?_
      · rintro b ⟨⟩
        exact ⟨l, hAm, by rw [List.length_replicate]; omega⟩
      · simp only [zeroize]
        rw [if_neg (by omega), if_pos (by rw [List.length_replicate]; omega)]
      xs []
      refine wp_l8freeP (P := some A) env fuel d hr (hstk (5 * i)) ?_
      xs []
      exact congrArg (fun m => (⟨st.fr, h', m, st.stk⟩ : St)) (hfin (5 * i))
  have hlt : i < a.items.length := by omega
  have hci := List.getElem?_eq_getElem hlt
  rw [List.drop_eq_getElem_cons (by simp; omega), List.getElem_take] at hloop
  obtain ⟨c1, c2, c3, c4, c5, c6, c7, c8⟩ := hc i _ hci
  have htk : a.items.take (i + 1) = a.items.take i ++ [a.items[i]] := by
    rw [List.take_succ_eq_append_getElem hlt]
  generalize a.items[i] = c at *
  obtain ⟨z1, z2, h1, h2, f1, f2, hrest⟩ := freeClaimsLoop_inv hloop
  have k1 := (free_ok f1).1
  have k2 := (free_ok f2).1
  have n1 := free_nodup f1 hdup
  have n2 := free_nodup f2 n1.1
  have hA2 : A.id ∈ h2.live := freeClaimsLoop_live hrest _ hAN
  have hA1 := (free_ok f2).2.2 _ hA2
  have hkA : ∀ b, c.key = some b → b.id ≠ A.id := fun b hb e => n1.2 b hb (e ▸ hA1)
  have hvA : ∀ b, c.value = some b → b.id ≠ A.id := fun b hb e => n2.2 b hb (e ▸ hA2)
  have hkv : ∀ b b', c.key = some b → c.value = some b' → b.id ≠ b'.id := fun b b' hb hb' e => n1.2 b hb (e ▸ k2 b' hb')
  have hlk : Has (kill (ownedIds (a.items.take i)) st.mem) c.key := by
    intro b hb
    obtain ⟨lk, q1, q2⟩ := c5 b hb
    refine ⟨lk, ?_, q2⟩
    simp only [kill]
    rw [if_neg (fun hx => hdead _ hx (k1 b hb))]
    exact q1
  have hlv : Has (zmem (kill (ownedIds (a.items.take i)) st.mem) c.key c.keyLength) c.value := by
    intro b hb
    obtain ⟨lk, q1, q2⟩ := c6 b hb
    refine ⟨lk, ?_, q2⟩
    rw [zmem_heap _ _ _ _ (fun b' hb' => hkv b' b hb' hb)]
    simp only [kill]
    rw [if_neg (fun hx => hdead _ hx ((free_ok f1).2.2 _ (k2 b hb)))]
    exact q1
  have hs0 : ∀ j, st.stk ≤ j → kill (ownedIds (a.items.take i)) st.mem (.stack j) = none := fun j hj => hw.stack j hj
  xs []
  refine wp_loadV (l := l) ?_ (by omega) (by rw [Int.toNat_natCast]; exact c1) (asTy_ptrVal _ _) ?_
  · exact hAm
  xs []
  refine wp_paddV (l := l) ?_ (by omega) (by omega) ?_
  · exact hAm
  refine wp_loadV (l := l) (v := .int c.keyLength) (w := .int c.keyLength) ?_ (by omega) ?_ ?_ ?_
  · exact hAm
  · rw [← c2]; congr 1
  · simp [asTy, wrap_u64 _ _ c7]
  xs []
  refine wp_zeroize env fuel (d + 1) hlk z1 ?_
  have hA1m : zmem (kill (ownedIds (a.items.take i)) st.mem) c.key c.keyLength (.heap A.id) = some l := by
    rw [zmem_heap _ _ _ _ hkA]; exact hAm
  xs []
  refine wp_paddV (l := l) ?_ (by omega) (by omega) ?_
  · exact hA1m
  refine wp_loadV (l := l) (v := ptrVal c.value) (w := ptrVal c.value) ?_ (by omega) ?_ (asTy_ptrVal _ _) ?_
  · exact hA1m
  · rw [← c3]; congr 1
  xs []
  refine wp_paddV (l := l) ?_ (by omega) (by omega) ?_
  · exact hA1m
  refine wp_loadV (l := l) (v := .int c.valueLength) (w := .int c.valueLength) ?_ (by omega) ?_ ?_ ?_
  · exact hA1m
  · rw [← c4]; congr 1
  · simp [asTy, wrap_u64 _ _ c8]
  xs []
  refine wp_zeroize env fuel (d + 1) hlv z2 ?_
  have hA2m : zmem (zmem (kill (ownedIds (a.items.take i)) st.mem) c.key c.keyLength) c.value c.valueLength (.heap A.id) = some l := by
    rw [zmem_heap _ _ _ _ hvA]; exact hA1m
  xs []
  refine wp_loadV (l := l) ?_ (by omega) (by rw [Int.toNat_natCast]; exact c1) (asTy_ptrVal _ _) ?_
  · exact hA2m
  xs []
  refine wp_l8freeP env fuel d f1 ?_ ?_
  · intro j hj
    simp only [zmem_stack]
    exact hs0 j hj
  have hA3m : fmem (zmem (zmem (kill (ownedIds (a.items.take i)) st.mem) c.key c.keyLength) c.value c.valueLength) c.key (.heap A.id) = some l := by
    rw [fmem_heap _ _ _ hkA]; exact hA2m
  xs []
  refine wp_paddV (l := l) ?_ (by omega) (by omega) ?_
  · exact hA3m
  refine wp_loadV (l := l) (v := ptrVal c.value) (w := ptrVal c.value) ?_ (by omega) ?_ (asTy_ptrVal _ _) ?_
  · exact hA3m
  · rw [← c3]; congr 1
  xs []
  refine wp_l8freeP env fuel d f2 ?_ ?_
  · intro j hj
    simp only [fmem_stack, zmem_stack]
    exact hs0 j hj
  have hA4m : fmem (fmem (zmem (zmem (kill (ownedIds (a.items.take i)) st.mem) c.key c.keyLength) c.value c.valueLength) c.key) c.value (.heap A.id) = some l := by
    rw [fmem_heap _ _ _ hvA]; exact hA3m
  xs []
  refine wp_paddV (l := l) ?_ (by omega) (by omega) ?_
  · exact hA4m
  xs []
  refine ⟨n - (i + 1), by omega, i + 1, h2, rfl, by omega, ?_, hrest, n2.1, ?_⟩
  · rw [claim_freed, htk]
    simp only [ownedIds, List.flatMap_append]
    xeq
  · intro j hj
    rw [htk] at hj
    simp only [ownedIds, List.flatMap_append, List.mem_append] at hj
    rcases hj with hj | hj
    · exact fun hx => hdead j hj ((free_ok f1).2.2 _ ((free_ok f2).2.2 _ hx))
    · simp only [List.flatMap_cons, List.flatMap_nil, List.append_nil, List.mem_map, List.mem_append, Option.mem_toList] at hj
      obtain ⟨b, hb | hb, rfl⟩ := hj
      · exact fun hx => n1.2 b hb ((free_ok f2).2.2 _ hx)
      · exact n2.2 b hb

/-! ## l8w8jwt_escape_claim_string -/

/-- A string of the table as a value. -/
def strVal : Option Bytes → Val
  | none => .ptr none
  | some e => .ptr (some (.lit e, 0))

theorem escape_table_check : ((globs "l8w8jwt_escape_claim_string.escape_table").map fun l =>
    decide (l.length = 256 ∧ ∀ c : Fin 256, l[c.val]? = some (strVal (escapeTable c)))) = some true := by
  decide +kernel

/-- The escape table in the text is the one of the model. -/
theorem escape_table_get : ∃ l, globs "l8w8jwt_escape_claim_string.escape_table" = some l ∧ l.length = 256 ∧
    ∀ c : UInt8, l[c.toNat]? = some (strVal (escapeTable c.toNat)) := by
  have h := escape_table_check
  cases hg : globs "l8w8jwt_escape_claim_string.escape_table" with
  | none => rw [hg] at h; cases h
  | some l =>
    rw [hg] at h
    simp only [Option.map_some, Option.some.injEq, decide_eq_true_eq] at h
    exact ⟨l, rfl, h.1, fun c => h.2 ⟨c.toNat, c.toNat_lt⟩⟩

theorem escapeTable_strlen (c : UInt8) (e : Bytes) (h : escapeTable c.toNat = some e) : strlen (e ++ [0]) = .ok e.length := by
  have : ∀ c : Fin 256, (match escapeTable c with | none => true | some e => decide (strlen (e ++ [0]) = .ok e.length)) = true := by
    decide +kernel
  have := this ⟨c.toNat, c.toNat_lt⟩
  simp only [h] at this
  simpa using this

theorem wp_strlen (env : Env) (fuel d : Nat) {p : Val} {s : Sched} {st : St} {m : Bytes} {r : Nat} {Q : Val → St → Prop}
    (h1 : Pts globs st.mem p (some m)) (hr : strlen m = .ok r) (hq : Q (.int r) st) :
    WP ((cx env fuel d).call "strlen" [p]) s st Q := by
  obtain ⟨b1, o1, c1, rfl, h1, ho1, hl1⟩ := h1
  rw [cx_lib _ _ _ rfl]
  refine ⟨_, _, ?_, hq⟩
  show (do
      let a ← bytesAt (lctx env) (.ptr (some (b1, (o1 : Int))))
      let r ← X.res (strlen a)
      pure (.int r) : X Val) s st = _
  have e1 : bytesAt (lctx env) (.ptr (some (b1, (o1 : Int)))) s st = .ok (m, st) := by
    simp only [bytesAt, X.bind_apply, obj_cont (c := lctx env) h1]
    rw [if_neg (by omega), X.pure_apply, ← hl1]
    rfl
  simp only [X.bind_apply, e1, hr, X.res_ok, X.pure_apply]

theorem pts_lit (mem : Blk → Option (List Val)) (e : Bytes) : Pts globs mem (.ptr (some (.lit e, 0))) (some (e ++ [0])) :=
  ⟨_, 0, _, rfl, cont_lit e, by simp, by rw [bytesFrom_cells]; rfl⟩

theorem Pts.frame {mem mem' : Blk → Option (List Val)} {v : Val} {m : Option Bytes} (h : Pts globs mem v m)
    (hf : ∀ b, v.blk = some b → mem' b = mem b) : Pts globs mem' v m := by
  cases m with
  | none => exact h
  | some bs =>
    obtain ⟨b, o, l, rfl, h1, h2, h3⟩ := h
    refine ⟨b, o, l, rfl, ?_, h2, h3⟩
    rw [← h1]
    have := hf b rfl
    cases b <;> simp_all [cont]

theorem BufAt.drop {mem : Blk → Option (List Val)} {b : Blk} {id cap k : Nat} {buf : Bytes} (h : BufAt mem b id cap buf)
    (hb : ∀ j, k ≤ j → b ≠ .stack j) : BufAt (dropStack k mem) b id cap buf := by
  obtain ⟨g1, g2, g3, ⟨g, g4⟩, rest, g5⟩ := h
  refine ⟨g1, g2, g3, ⟨g, ?_⟩, rest, g5⟩
  rw [← g4]
  cases b with
  | stack j =>
    simp only [dropStack]
    rw [if_neg (fun hj => hb j hj rfl)]
  | _ => rfl

/-- src/claim.c:59-110: the text of `l8w8jwt_escape_claim_string`: appends the escaped string to the buffer; nothing else in memory
changes. -/
theorem wp_escape (env : Env) (fuel d : Nat) {s : Sched} {st : St} {b : Blk} {id : Nat} {buf buf' m : Bytes} {p : Val} {n : Nat} {h' : Heap}
    {Q : Val → St → Prop} (hstk : ∀ j, st.stk ≤ j → st.mem (.stack j) = none)
    (hb : BufAt st.mem b id 256 buf) (hp : Pts globs st.mem p (some m)) (hne : p.blk ≠ some b ∧ p.blk ≠ some (.heap id))
    (hn : n ≤ m.length) (hn64 : n < 18446744073709551616) (hf : n < fuel)
    (hr : escapeLoop env.charSigned buf (m.take n) s st.heap = .ok (buf', h'))
    (hq : ∀ v mem', BufAt mem' b id 256 buf' → Frame st.mem mem' b id → Q v { st with heap := h', mem := mem' }) :
    WP (runFun (cx env fuel d) l8w8jwt_escape_claim_string [.ptr (some (b, 0)), p, .int n]) s st Q := by
  have hbk : ∀ j, st.stk ≤ j → b ≠ .stack j := by
    rintro j hj rfl
    obtain ⟨-, -, -, ⟨g, e⟩, -⟩ := hb
    rw [hstk j hj] at e
    cases e
  obtain ⟨pb, po, pl, rfl, hpl, hpo, rfl⟩ := hp
  have hpk : ∀ j, st.stk ≤ j → pb ≠ .stack j := by
    rintro j hj rfl
    simp only [cont, hstk j hj] at hpl
    cases hpl
  obtain ⟨tl, ht1, ht2, ht3⟩ := escape_table_get
  apply wp_runFun
  simp only [l8w8jwt_escape_claim_string, Nat.reduceSub, List.replicate, List.cons_append, List.nil_append]
  xs []
  unfold l8w8jwt_escape_claim_string.loop1
  refine wp_loop (fun k st' => ∃ (i : Nat) (h : Heap) (bf : Bytes) (mem : Blk → Option (List Val)) (sk : Nat) (x y : Val), k = n - i ∧ i ≤ n ∧
    st' = ⟨[.ptr (some (b, 0)), .ptr (some (pb, po)), .int n, .int i, x, y], h, mem, sk⟩ ∧ st.stk ≤ sk ∧ BufAt mem b id 256 bf ∧
    (∀ x, x ≠ b → x ≠ .heap id → (∀ j, st.stk ≤ j → x ≠ .stack j) → mem x = st.mem x) ∧
    escapeLoop env.charSigned bf (((bytesFrom pl po).take n).drop i) s h = .ok (buf', h')) n ?_
    ⟨0, st.heap, buf, st.mem, st.stk, .undef, .undef, by simp, by omega, by simp, by omega, hb, fun _ _ _ _ => rfl, hr⟩ hf
  rintro k st' ⟨i, h, bf, mem, sk, x, y, rfl, hi, rfl, hsk, hbuf, hfr, hloop⟩
  by_cases hin : i = n
  · subst hin
    rw [List.drop_of_length_le (by simp; omega)] at hloop
    cases hloop
    xs []
    refine hq _ _ ?_ ?_
    · exact hbuf.drop hbk
    · intro x hx hi
      cases x with
      | stack j =>
        simp only [dropStack]
        by_cases hj : st.stk ≤ j
        · rw [if_pos hj, hstk j hj]
        · rw [if_neg hj]
          refine hfr _ hx hi ?_
          rintro j' hj' e
          cases e
          exact hj hj'
      | _ => exact hfr _ hx hi (by rintro _ _ ⟨⟩)
  have hilt : i < (bytesFrom pl po).length := by omega
  have hget := List.getElem?_eq_getElem hilt
  rw [List.drop_eq_getElem_cons (by simp; omega), List.getElem_take] at hloop
  generalize (bytesFrom pl po)[i] = c at hloop hget
  simp only [escapeLoop, bind, M.bind, M.lift] at hloop
  cases hesc : escapeChar env.charSigned c with
  | error e => simp [hesc] at hloop
  | ok e =>
  simp only [hesc] at hloop
  rw [push_eq] at hloop
  simp only at hloop
  have hcv : 0 ≤ charVal env.charSigned c ∧ charVal env.charSigned c = c.toNat := by
    unfold escapeChar at hesc
    split at hesc
    · cases hesc
    · rename_i hc
      have := c.toNat_lt
      refine ⟨by omega, ?_⟩
      unfold charVal at hc ⊢
      split
      · rename_i hx; rw [if_pos hx] at hc; omega
      · rfl
  have hps : pb ≠ .stack sk := hpk sk hsk
  have hbs : b ≠ .stack sk := hbk sk hsk
  have hpm : cont globs (upd mem (.stack sk) (some [.undef])) pb = some pl := by
    rw [cont_upd hps, ← hpl]
    have := hfr pb (fun e => hne.1 (by rw [e]; rfl)) (fun e => hne.2 (by rw [e]; rfl)) hpk
    cases pb <;> simp_all [cont]
  have hple : po + i < pl.length := bytesFrom_lt hget
  have hsafe := c.toNat_lt
  xs []
  refine wp_paddV (l := pl) ?_ (by omega) (by omega) ?_
  · exact hpm
  refine wp_load_char (l := pl) ?_ hget (by omega) ?_
  · exact hpm
  refine wp_storeV rfl (l := [.undef]) (w := .int c.toNat) (upd_same _ _ _) (by omega) (by simp) ?_ ?_
  · show Except.ok (Val.int (charVal (cx env fuel d).cs c % 256)) = _
    rw [cx_cs, hcv.2, Int.emod_eq_of_lt (by omega) (by omega)]
  xs []
  rw [upd_upd]
  refine wp_loadV (l := [.int c.toNat]) (v := .int c.toNat) (w := .int c.toNat) ?_ (by omega) rfl ?_ ?_
  · show upd _ _ _ _ = _
    rw [upd_same]
  · rw [asTy_char, cx_cs, hcv.2]
  xs []
  refine wp_paddV (l := tl) ?_ (by omega) (by omega) ?_
  · exact ht1
  rw [Int.zero_add]
  refine wp_loadV (l := tl) (v := strVal (escapeTable c.toNat)) (w := strVal (escapeTable c.toNat)) ?_ (by omega) (ht3 c) ?_ ?_
  · exact ht1
  · cases escapeTable c.toNat <;> rfl
  have hb1 : BufAt (upd mem (.stack sk) (some [.int c.toNat])) b id 256 bf := by
    obtain ⟨g1, g2, g3, ⟨g, g4⟩, rest, g5⟩ := hbuf
    exact ⟨g1, g2, g3, ⟨g, by rw [upd_ne _ _ hbs]; exact g4⟩, rest, by rw [upd_ne _ _ (by simp)]; exact g5⟩
  have hfr1 : ∀ mem2, Frame (upd mem (.stack sk) (some [.int c.toNat])) mem2 b id →
      ∀ x, x ≠ b → x ≠ .heap id → (∀ j, st.stk ≤ j → x ≠ .stack j) → mem2 x = st.mem x := by
    intro mem2 h2 x h3 h4 h5
    rw [h2 x h3 h4, upd_ne _ _ (h5 sk hsk)]
    exact hfr x h3 h4 h5
  have hpush : ∀ (q : Val) (m : Bytes) (k : Nat) (fr : List Val), Pts globs (upd mem (.stack sk) (some [.int c.toNat])) q (some m) → k ≤ m.length → m.take k = e →
      WP ((cx env fuel d).call "chillbuff_push_back" [.ptr (some (b, 0)), q, .int k]) s
        ⟨fr, h, upd mem (.stack sk) (some [.int c.toNat]), sk + 1⟩ (fun _ st1 => ∃ bf' mem', st1 = ⟨fr, { h with tick := h.tick + 1 }, mem', sk + 1⟩ ∧
          BufAt mem' b id 256 bf' ∧ Frame (upd mem (.stack sk) (some [.int c.toNat])) mem' b id ∧
          escapeLoop env.charSigned bf' (((bytesFrom pl po).take n).drop (i + 1)) s { h with tick := h.tick + 1 } = .ok (buf', h')) := by
    intro q m k fr h1 h2 h3
    refine wp_push env fuel d hb1 (fun _ => h1) h2 (push_eq _ _ _ _ _) ?_
    intro v mem' h4 h5
    refine ⟨_, mem', rfl, h4, h5, ?_⟩
    rw [h3]
    exact hloop
  cases htab : escapeTable c.toNat with
  | some e' =>
    have he : e = e' := by
      unfold escapeChar at hesc
      rw [if_neg (by omega), htab] at hesc
      cases hesc
      rfl
    subst he
    have hsl := escapeTable_strlen c _ htab
    simp only [strVal]
    xs []
    refine wp_strlen env fuel d (pts_lit _ e) hsl ?_
    xs []
    refine WP_mono (hpush _ (e ++ [0]) e.length _ (pts_lit _ e) (by simp) (by simp)) ?_
    rintro v st1 ⟨bf', mem', rfl, g1, g2, g3⟩
    xs []
    refine ⟨n - (i + 1), by omega, i + 1, _, bf', mem', sk + 1, .ptr (some (.stack sk, 0)), .ptr (some (.lit e, 0)), rfl, by omega, ?_, by omega, g1, hfr1 _ g2, g3⟩
    xeq
  | none =>
    have he : e = [c] := by
      unfold escapeChar at hesc
      rw [if_neg (by omega), htab] at hesc
      cases hesc
      rfl
    subst he
    simp only [strVal]
    xs []
    refine WP_mono (hpush _ [c] 1 _ ⟨.stack sk, 0, [.int c.toNat], rfl, ?_, by simp, ?_⟩ (by simp) (by simp)) ?_
    · show upd _ _ _ _ = _
      rw [upd_same]
    · exact bytesFrom_cells [c] 0
    rintro v st1 ⟨bf', mem', rfl, g1, g2, g3⟩
    xs []
    refine ⟨n - (i + 1), by omega, i + 1, _, bf', mem', sk + 1, .ptr (some (.stack sk, 0)), .ptr none, rfl, by omega, ?_, by omega, g1, hfr1 _ g2, g3⟩
    xeq

/-! ## l8w8jwt_write_claims -/

theorem M.bind_inv {α β : Type} {m : M α} {f : α → M β} {s : Sched} {h h' : Heap} {r : β} (H : (m >>= f) s h = .ok (r, h')) :
    ∃ a h1, m s h = .ok (a, h1) ∧ f a s h1 = .ok (r, h') := by
  simp only [bind, M.bind] at H
  split at H
  · cases H
  · exact ⟨_, _, by assumption, H⟩

theorem M.lift_inv {α : Type} {x : Res α} {s : Sched} {h h' : Heap} {r : α} (H : M.lift x s h = .ok (r, h')) : x = .ok r ∧ h = h' := by
  unfold M.lift at H
  split at H
  · cases H
  · cases H; exact ⟨rfl, rfl⟩

theorem M.pure_inv {α : Type} {x : α} {s : Sched} {h h' : Heap} {r : α} (H : (pure x : M α) s h = .ok (r, h')) : x = r ∧ h = h' := by
  cases H; exact ⟨rfl, rfl⟩

theorem M.liftBind_inv {α β : Type} {x : Res α} {f : α → M β} {s : Sched} {h h' : Heap} {r : β} (H : (M.lift x >>= f) s h = .ok (r, h')) :
    ∃ a, x = .ok a ∧ f a s h = .ok (r, h') := by
  obtain ⟨a, h1, H1, H2⟩ := M.bind_inv H
  obtain ⟨H3, rfl⟩ := M.lift_inv H1
  exact ⟨a, H3, H2⟩

theorem escapeTable_length (c : UInt8) (e : Bytes) (h : escapeTable c.toNat = some e) : e.length ≤ 6 := by
  have : ∀ c : Fin 256, (match escapeTable c with | none => true | some e => decide (e.length ≤ 6)) = true := by
    decide +kernel
  have := this ⟨c.toNat, c.toNat_lt⟩
  simp only [h] at this
  simpa using this

theorem escapeLoop_length {cs : Bool} {t buf buf' : Bytes} {s : Sched} {h h' : Heap} (H : escapeLoop cs buf t s h = .ok (buf', h')) :
    buf'.length ≤ buf.length + 6 * t.length := by
  induction t generalizing buf h with
  | nil => cases H; simp
  | cons c t ih =>
    simp only [escapeLoop] at H
    obtain ⟨e, h1, H1, H⟩ := M.bind_inv H
    obtain ⟨H1, rfl⟩ := M.lift_inv H1
    obtain ⟨b2, h2, H2, H⟩ := M.bind_inv H
    rw [push_eq] at H2
    cases H2
    have := ih H
    have he : e.length ≤ 6 := by
      unfold escapeChar at H1
      split at H1
      · cases H1
      · split at H1
        · cases H1; exact escapeTable_length c _ (by assumption)
        · cases H1; simp
    simp only [List.length_append, List.length_take, List.length_cons] at this ⊢
    omega

/-- The memory while claims are written: the builder (object `B`, array `bid`), the escape buffer (local object `sk`, array `eid`), and
everything else as before. -/
structure WMem (m0 mem : Blk → Option (List Val)) (B : Blk) (bid cap : Nat) (buf : Bytes) (sk eid : Nat) (ebuf : Bytes) : Prop where
  bldr : BufAt mem B bid cap buf
  esc : BufAt mem (.stack sk) eid 256 ebuf
  frame : ∀ x, x ≠ B → x ≠ .heap bid → x ≠ .stack sk → x ≠ .heap eid → mem x = m0 x
  neB : B ≠ .stack sk
  neB' : B ≠ .heap eid
  neid : bid ≠ eid
  fresh : ∀ j, sk < j → m0 (.stack j) = none
  freshB : ∀ j, sk < j → B ≠ .stack j

theorem BufAt.frame {m m' : Blk → Option (List Val)} {b b' : Blk} {id id' cap : Nat} {buf : Bytes} (h : BufAt m b id cap buf)
    (hf : Frame m m' b' id') (h1 : b ≠ b') (h2 : b ≠ .heap id') (h3 : .heap id ≠ b') (h4 : id ≠ id') : BufAt m' b id cap buf := by
  obtain ⟨g1, g2, g3, ⟨g, g4⟩, rest, g5⟩ := h
  exact ⟨g1, g2, g3, ⟨g, by rw [hf _ h1 h2]; exact g4⟩, rest, by rw [hf _ h3 (by simpa using h4)]; exact g5⟩

theorem WMem.push {m0 mem mem' : Blk → Option (List Val)} {B : Blk} {bid cap sk eid : Nat} {buf buf' ebuf : Bytes}
    (h : WMem m0 mem B bid cap buf sk eid ebuf) (hb : BufAt mem' B bid cap buf') (hf : Frame mem mem' B bid) :
    WMem m0 mem' B bid cap buf' sk eid ebuf :=
  { h with
    bldr := hb
    esc := h.esc.frame hf (Ne.symm h.neB) (by simp) (Ne.symm h.neB') (Ne.symm h.neid)
    frame := fun x h1 h2 h3 h4 => (hf x h1 h2).trans (h.frame x h1 h2 h3 h4) }

theorem WMem.epush {m0 mem mem' : Blk → Option (List Val)} {B : Blk} {bid cap sk eid : Nat} {buf ebuf ebuf' : Bytes}
    (h : WMem m0 mem B bid cap buf sk eid ebuf) (hb : BufAt mem' (.stack sk) eid 256 ebuf') (hf : Frame mem mem' (.stack sk) eid) :
    WMem m0 mem' B bid cap buf sk eid ebuf' :=
  { h with
    esc := hb
    bldr := h.bldr.frame hf h.neB h.neB' (by simp) h.neid
    frame := fun x h1 h2 h3 h4 => (hf x h3 h4).trans (h.frame x h1 h2 h3 h4) }

/-- The pointer does not point into the given objects. -/
def Apart (v : Val) (bs : List Blk) : Prop := ∀ b ∈ bs, v.blk ≠ some b

theorem WMem.cont {m0 mem : Blk → Option (List Val)} {B : Blk} {bid cap sk eid : Nat} {buf ebuf : Bytes}
    (h : WMem m0 mem B bid cap buf sk eid ebuf) {b : Blk} {l : List Val} (hc : cont globs m0 b = some l)
    (h1 : b ≠ B) (h2 : b ≠ .heap bid) (h3 : b ≠ .stack sk) (h4 : b ≠ .heap eid) : cont globs mem b = some l := by
  rw [← hc]
  have := h.frame b h1 h2 h3 h4
  cases b <;> simp_all [C.cont]

theorem WMem.pts {m0 mem : Blk → Option (List Val)} {B : Blk} {bid cap sk eid : Nat} {buf ebuf : Bytes}
    (h : WMem m0 mem B bid cap buf sk eid ebuf) {v : Val} {m : Option Bytes} (hp : Pts globs m0 v m)
    (ha : Apart v [B, .heap bid, .stack sk, .heap eid]) : Pts globs mem v m := by
  refine hp.frame fun b hb => h.frame b ?_ ?_ ?_ ?_ <;> rintro rfl
  · exact ha _ (by simp) hb
  · exact ha _ (by simp) hb
  · exact ha _ (by simp) hb
  · exact ha _ (by simp) hb

/-- The escape buffer as the source of a copy. -/
theorem WMem.escPts {m0 mem : Blk → Option (List Val)} {B : Blk} {bid cap sk eid : Nat} {buf ebuf : Bytes}
    (h : WMem m0 mem B bid cap buf sk eid ebuf) :
    ∃ m, Pts globs mem (.ptr (some (.heap eid, 0))) (some m) ∧ ebuf.length ≤ m.length ∧ m.take ebuf.length = ebuf := by
  obtain ⟨g1, g2, g3, ⟨g, g4⟩, rest, g5⟩ := h.esc
  refine ⟨bytesFrom (cells ebuf ++ rest) 0, ⟨.heap eid, 0, _, rfl, g5, by omega, rfl⟩, ?_, ?_⟩
  · simp only [bytesFrom, List.drop_zero, toBytes_cells_append, List.length_append]
    omega
  · simp only [bytesFrom, List.drop_zero, toBytes_cells_append, List.take_left']

theorem WMem.stk {m0 mem : Blk → Option (List Val)} {B : Blk} {bid cap sk eid : Nat} {buf ebuf : Bytes}
    (h : WMem m0 mem B bid cap buf sk eid ebuf) : ∀ j, sk + 1 ≤ j → mem (.stack j) = none := by
  intro j hj
  rw [h.frame (.stack j) (Ne.symm (h.freshB j (by omega))) (by simp) (by intro e; cases e; omega) (by simp)]
  exact h.fresh j (by omega)

end L8w8jwt.C
