import Verif.C.WriteProof
import Verif.Props.Claim
import Verif.Props.Text
/-!
# C76: what the text of src/claim.c does to memory

As in Props/Text.lean, the statements are about executions of the text; the functions of Verif/Model do not occur in them.
-/

namespace L8w8jwt.C

open Spec

/-! ## `l8w8jwt_get_claim` -/

/-- The address of the element with this index of an array of claims (five members each); NULL if there is none. -/
def _root_.L8w8jwt.Spec.elemAddr (p : Val) (i : Option Nat) : Val :=
  match p, i with
  | .ptr (some (b, o)), some i => .ptr (some (b, o + 5 * i))
  | _, _ => .ptr none

/-- **C76** The text of `l8w8jwt_get_claim` returns the address of the first claim whose key begins with the given characters, or NULL
if there is none, and changes nothing. -/
theorem C76_get_claim_text (env : Env) (fuel d : Nat) (s : Sched) (st : St) (hw : Wf st) (p1 p3 : Val) (claims : List Claim) (key : Bytes)
    (k : Nat) (h1 : ClaimsAt st.mem p1 (some claims)) (h3 : Pts globs st.mem p3 (some key)) (hk0 : k ≠ 0) (hk : k ≤ key.length)
    (hz : ∀ c ∈ key.take k, c ≠ 0) (hc : ∀ c ∈ claims, ∃ b, c.key = some b ∧ 0 ∈ b.mem) (hf : claims.length < fuel) :
    runFun (cx env fuel d) Src.l8w8jwt_get_claim [p1, .int claims.length, p3, .int k] s st =
      .ok (elemAddr p1 (findClaim (fun x => (key.take k).isPrefixOf x) claims), st) := by
  rw [get_claim_text env fuel d s st hw p1 p3 (some claims) (some key) claims.length k h1 h3
    (by rintro _ ⟨⟩; exact Nat.le_refl _) _ (C15_get_claim_partial claims key k hk0 hk hz hc).1 hf]
  obtain ⟨b, o, l, rfl, -⟩ := h1
  cases findClaim (fun x => (key.take k).isPrefixOf x) claims <;> rfl

/-- **C76** NULL pointers and zero lengths: `l8w8jwt_get_claim` returns NULL. -/
theorem C76_get_claim_null_text (env : Env) (fuel d : Nat) (s : Sched) (st : St) (hw : Wf st) (p1 p3 : Val) (claims : Option (List Claim))
    (key : Option Bytes) (n k : Nat) (h1 : ClaimsAt st.mem p1 claims) (h3 : Pts globs st.mem p3 key)
    (hn : ∀ cs, claims = some cs → n ≤ cs.length) (h0 : claims = none ∨ key = none ∨ n = 0 ∨ k = 0) (hf : n < fuel) :
    runFun (cx env fuel d) Src.l8w8jwt_get_claim [p1, .int n, p3, .int k] s st = .ok (.ptr none, st) := by
  rw [get_claim_text env fuel d s st hw p1 p3 claims key n k h1 h3 hn none (C15_get_claim_null claims n key k h0) hf]
  rfl

/-- Two claims `abc` and `ab`, the key `ab`. -/
def exClaims : St where
  fr := []
  heap := heap0
  mem := fun b => if b = .stack 0 then some (cells (str "abc\x00ab\x00x/y\x00")) else if b = .stack 1 then
      some [exPtr 0 0, .int 0, exPtr 0 7, .int 0, .int 0, exPtr 0 4, .int 0, exPtr 0 7, .int 3, .int 0]
    else none
  stk := 2

/-- The requested key is `ab`, but the claim found is `abc` (see C15). -/
example : (match runFun (cx toy 10 0) Src.l8w8jwt_get_claim [exPtr 1 0, .int 2, exPtr 0 4, .int 2] calm exClaims with
    | .ok (v, _) => some v | _ => none) = some (exPtr 1 0) := by decide +kernel
example : (match runFun (cx toy 10 0) Src.l8w8jwt_get_claim [exPtr 1 0, .int 2, exPtr 0 4, .int 3] calm exClaims with
    | .ok (v, _) => some v | _ => none) = some (exPtr 1 5) := by decide +kernel
example : (match runFun (cx toy 10 0) Src.l8w8jwt_get_claim [exPtr 1 0, .int 2, exPtr 0 7, .int 3] calm exClaims with
    | .ok (v, _) => some v | _ => none) = some (.ptr none) := by decide +kernel

/-! ## `l8w8jwt_free_claims` -/

theorem filter_all {α : Type} (l : List α) : l.filter (fun _ => true) = l := List.filter_eq_self.mpr (by simp)

/-- The length given for a string does not exceed its block. -/
def _root_.L8w8jwt.Spec.Fits (p : Ptr) (n : Nat) : Prop := n = 0 ∨ ∃ b, p = some b ∧ n ≤ b.mem.length

theorem zeroize_fits {p : Ptr} {n : Nat} (h : Fits p n) : zeroize p n = .ok () := by
  rcases h with rfl | ⟨b, rfl, h⟩
  · rfl
  · simp only [zeroize, h, if_true]
    split <;> rfl

theorem free_step {P : Ptr} {s : Sched} {h : Heap} (hn : h.live.Nodup) (hl : ∀ b, P = some b → b.id ∈ h.live) :
    ∃ h', free P s h = .ok ((), h') ∧ h'.live = h.live.filter (· ∉ P.toList.map Block.id) ∧ h'.tick = h.tick := by
  cases P with
  | none => exact ⟨h, rfl, by simp [filter_all], rfl⟩
  | some b =>
    refine ⟨{ h with live := h.live.erase b.id }, by simp only [free, hl b rfl, if_true], ?_, rfl⟩
    simp only [hn.erase_eq_filter]
    congr 1
    funext x
    by_cases hx : x = b.id <;> simp [hx]

theorem freeClaimsLoop_runs (cs : List Claim) (s : Sched) (h : Heap) (hz : ∀ c ∈ cs, Fits c.key c.keyLength ∧ Fits c.value c.valueLength)
    (hd : (ownedIds cs).Nodup) (hl : ∀ i ∈ ownedIds cs, i ∈ h.live) (hn : h.live.Nodup) :
    ∃ h', freeClaimsLoop cs s h = .ok ((), h') ∧ h'.live = h.live.filter (· ∉ ownedIds cs) ∧ h'.tick = h.tick := by
  induction cs generalizing h with
  | nil => exact ⟨h, rfl, by simp [ownedIds, filter_all], rfl⟩
  | cons c t ih =>
    have hown : ownedIds (c :: t) = c.key.toList.map Block.id ++ (c.value.toList.map Block.id ++ ownedIds t) := by
      simp [ownedIds]
    rw [hown] at hd hl ⊢
    obtain ⟨d1, d2, d3⟩ := List.nodup_append.mp hd
    obtain ⟨e1, e2, e3⟩ := List.nodup_append.mp d2
    obtain ⟨z1, z2⟩ := hz c (by simp)
    obtain ⟨h1, r1, l1, t1⟩ := free_step (P := c.key) (s := s) (h := h) hn (fun b hb => hl _ (by simp [hb]))
    obtain ⟨h2, r2, l2, t2⟩ := free_step (P := c.value) (s := s) (h := h1) (by rw [l1]; exact hn.filter _) (fun b hb => by
      rw [l1, List.mem_filter]
      refine ⟨hl _ (by simp [hb]), ?_⟩
      simp only [decide_eq_true_eq]
      intro hm
      exact d3 _ hm b.id (by simp [hb]) rfl)
    obtain ⟨h3, r3, l3, t3⟩ := ih h2 (fun c hc => hz c (by simp [hc])) e2 (fun i hi => by
      rw [l2, l1, List.mem_filter, List.mem_filter]
      refine ⟨⟨hl _ (by simp [hi]), ?_⟩, ?_⟩
      · simp only [decide_eq_true_eq]
        intro hm
        exact d3 _ hm i (by simp [hi]) rfl
      · simp only [decide_eq_true_eq]
        intro hm
        exact e3 _ hm i hi rfl) (by rw [l2, l1]; exact (hn.filter _).filter _)
    refine ⟨h3, ?_, ?_, by omega⟩
    · unfold freeClaimsLoop
      rw [zeroize_fits z1, zeroize_fits z2]
      show (free c.key >>= fun _ => free c.value >>= fun _ => freeClaimsLoop t) s h = _
      simp only [bind, M.bind, r1, r2, r3]
    · rw [l3, l2, l1, List.filter_filter, List.filter_filter]
      congr 1
      funext x
      simp only [List.mem_append, not_or, ← Bool.decide_and, decide_eq_decide]
      exact ⟨fun ⟨⟨a, b⟩, c⟩ => ⟨c, b, a⟩, fun ⟨a, b, c⟩ => ⟨⟨c, b⟩, a⟩⟩

/-- **C76** The text of `l8w8jwt_free_claims` on an array of claims that own their strings, all in live blocks, all different: it ends
without undefined behaviour, the blocks of the keys, of the values and of the array are gone, every other block is still live and
every other object unchanged. -/
theorem C76_free_claims_text (env : Env) (fuel d : Nat) (s : Sched) (st : St) (hw : Wf st) (blk : Block) (claims : List Claim)
    (hm : OwnedAt st.mem ⟨some blk, claims⟩) (hd : st.heap.live.Nodup) (hz : ∀ c ∈ claims, Fits c.key c.keyLength ∧ Fits c.value c.valueLength)
    (hi : (ownedIds claims ++ [blk.id]).Nodup) (hl : ∀ i ∈ ownedIds claims ++ [blk.id], i ∈ st.heap.live)
    (hn : 5 * claims.length < 18446744073709551616) (hf : claims.length < fuel) :
    ∃ st', runFun (cx env fuel (d + 1)) Src.l8w8jwt_free_claims [ptrVal (some blk), .int claims.length] s st = .ok (.undef, st') ∧
      st'.heap.live = st.heap.live.filter (· ∉ ownedIds claims ++ [blk.id]) ∧
      (∀ i ∈ ownedIds claims ++ [blk.id], st'.mem (.heap i) = none) ∧
      (∀ b, (∀ i ∈ ownedIds claims ++ [blk.id], b ≠ .heap i) → st'.mem b = st.mem b) ∧ st'.fr = st.fr ∧ st'.stk = st.stk := by
  obtain ⟨d1, d2, d3⟩ := List.nodup_append.mp hi
  obtain ⟨h1, r1, l1, t1⟩ := freeClaimsLoop_runs claims s st.heap hz d1 (fun i h => hl i (by simp [h])) hd
  obtain ⟨h2, r2, l2, t2⟩ := free_step (P := some blk) (s := s) (h := h1) (by rw [l1]; exact hd.filter _) (by
    rintro _ ⟨⟩
    rw [l1, List.mem_filter]
    refine ⟨hl _ (by simp), ?_⟩
    simp only [decide_eq_true_eq]
    intro h
    exact d3 _ h blk.id (by simp) rfl)
  have hr : freeClaims ⟨some blk, claims⟩ claims.length s st.heap = .ok ((), h2) := by
    simp only [freeClaims, rdN, Nat.le_refl, if_true, List.take_length]
    show (freeClaimsLoop claims >>= fun _ => free (some blk)) s st.heap = _
    simp only [bind, M.bind, r1, r2]
  have key := free_claims_text env fuel d s st hw ⟨some blk, claims⟩ claims.length hm hd hn hf h2 hr
  refine ⟨_, key, ?_, ?_, ?_, rfl, rfl⟩
  · show h2.live = _
    rw [l2, l1, List.filter_filter]
    congr 1
    funext x
    simp [Bool.and_comm]
  · intro i hi
    simp only [List.take_length, kill, hi, if_true]
  · intro b hb
    simp only [List.take_length]
    cases b with
    | heap i =>
      simp only [kill]
      rw [if_neg]
      intro h
      exact hb i h rfl
    | _ => rfl

/-- **C76** `l8w8jwt_free_claims(NULL, n)` does nothing. -/
theorem C76_free_claims_null_text (env : Env) (fuel d : Nat) (s : Sched) (st : St) (hw : Wf st) (n : Nat) (hd : st.heap.live.Nodup)
    (hn : 5 * n < 18446744073709551616) (hf : n < fuel) :
    runFun (cx env fuel (d + 1)) Src.l8w8jwt_free_claims [.ptr none, .int n] s st = .ok (.undef, st) :=
  free_claims_text env fuel d s st hw ⟨none, []⟩ n (by rintro b ⟨⟩) hd hn hf st.heap rfl

/-- An array in block 4 with one claim, the strings in blocks 2 and 7; block 9 is not part of it. -/
def exOwned : St where
  fr := []
  heap := { tick := 10, live := [9, 7, 4, 2] }
  mem := fun b => if b = .heap 2 then some (cells (str "sub")) else if b = .heap 7 then some (cells (str "joe\x00"))
    else if b = .heap 4 then some [.ptr (some (.heap 2, 0)), .int 3, .ptr (some (.heap 7, 0)), .int 3, .int 0]
    else if b = .heap 9 then some [.int 1] else none
  stk := 0

example : (match runFun (cx toy 10 1) Src.l8w8jwt_free_claims [.ptr (some (.heap 4, 0)), .int 1] calm exOwned with
    | .ok (_, st) => some (st.heap.live, [st.mem (.heap 2), st.mem (.heap 7), st.mem (.heap 4), st.mem (.heap 9)])
    | _ => none) = some ([9], [none, none, none, some [.int 1]]) := by decide +kernel

/-! ## `l8w8jwt_write_claims` -/

/-- **C76** The text of `l8w8jwt_write_claims` on readable claims: it ends without undefined behaviour, no block is leaked, and no
object but the builder changes. Either the comma-separated members, escaped, are appended to the builder, or the code for lack of
memory is returned and the builder is unchanged. -/
theorem C76_write_claims_text (env : Env) (fuel d : Nat) (s : Sched) (g : s.noGrowFail) (st : St) (hw : Wf st) (B : Blk) (bid cap : Nat)
    (buf : Bytes) (p1 : Val) (claims : List Claim) (hB : BufAt st.mem B bid cap buf) (h1 : ClaimsAt st.mem p1 (some claims))
    (hap : Apart p1 [B, .heap bid]) (haps : ∀ b o l, p1 = .ptr (some (b, o)) → cont globs st.mem b = some l → ∀ i, i < claims.length →
      ApartCells l (o.toNat + 5 * i) [B, .heap bid])
    (hcn : ∀ c ∈ claims, Countable fuel c.key ∧ Countable fuel c.value) (hf : claims.length < fuel) (hne : claims ≠ [])
    (hok : ∀ c ∈ claims, claimOk c) (ha : env.charSigned = true → ∀ c ∈ claims, ∀ m, member c = some m → m.ascii) :
    ∃ (rc : Nat) (st' : St) (b : Bytes), runFun (cx env fuel (d + 1)) Src.l8w8jwt_write_claims [.ptr (some (B, 0)), p1, .int claims.length] s st =
        .ok (.int rc, st') ∧
      ((rc = Code.success ∧ b = buf ++ commaSep (memberTexts claims)) ∨ (rc = Code.outOfMem ∧ b = buf ∧ s.failAlloc st.heap.tick = true)) ∧
      BufAt st'.mem B bid cap b ∧ (∀ x, x ≠ B → x ≠ .heap bid → st'.mem x = st.mem x) ∧ st'.heap.live = st.heap.live ∧
      st'.fr = st.fr ∧ st'.stk = st.stk := by
  obtain ⟨rc, b, h', e, hl, hd⟩ := C14_write_claims_exact (cap := cap) (h := st.heap) g env.charSigned buf claims hne hok ha
  obtain ⟨mem', e2, g1, g2⟩ := write_claims_text env fuel d s st hw B bid cap claims.length buf p1 claims hB h1 hap haps hcn hf rc b h' e
  exact ⟨rc, _, b, e2, hd, g1, g2, hl, rfl, rfl⟩

/-- **C76** NULL arguments are reported and nothing changes. -/
theorem C76_write_claims_null_text (env : Env) (fuel d : Nat) (s : Sched) (st : St) (hw : Wf st) (p0 p1 : Val) (n : Nat)
    (h : p0 = .ptr none ∨ (∃ q, p0 = .ptr (some q)) ∧ p1 = .ptr none) :
    runFun (cx env fuel d) Src.l8w8jwt_write_claims [p0, p1, .int n] s st = .ok (.int Code.nullArg, st) :=
  write_claims_null env fuel d s st hw p0 p1 n h

/-- **C76** An empty array is reported, the builder keeps its content and nothing else changes. -/
theorem C76_write_claims_zero_text (env : Env) (fuel d : Nat) (s : Sched) (st : St) (hw : Wf st) (B : Blk) (bid cap : Nat)
    (buf : Bytes) (p1 : Val) (claims : List Claim) (hB : BufAt st.mem B bid cap buf) (h1 : ClaimsAt st.mem p1 (some claims))
    (hap : Apart p1 [B, .heap bid]) (haps : ∀ b o l, p1 = .ptr (some (b, o)) → cont globs st.mem b = some l → ∀ i, i < claims.length →
      ApartCells l (o.toNat + 5 * i) [B, .heap bid])
    (hcn : ∀ c ∈ claims, Countable fuel c.key ∧ Countable fuel c.value) (hf : 0 < fuel) :
    ∃ mem', runFun (cx env fuel (d + 1)) Src.l8w8jwt_write_claims [.ptr (some (B, 0)), p1, .int 0] s st =
        .ok (.int Code.invalidArg, { st with mem := mem' }) ∧ BufAt mem' B bid cap buf ∧ ∀ x, x ≠ B → x ≠ .heap bid → mem' x = st.mem x :=
  write_claims_text env fuel d s st hw B bid cap 0 buf p1 claims hB h1 hap haps hcn hf _ buf st.heap rfl

/-- A builder (object 2, array in block 0) that contains `{`, and two claims. -/
def exBuilder : St where
  fr := []
  heap := { tick := 1, live := [0] }
  mem := fun b => if b = .stack 0 then some (cells (str "a\"b\x00x/y\n\x0017\x00")) else if b = .stack 1 then
      some [exPtr 0 0, .int 0, exPtr 0 4, .int 0, .int 0, .ptr none, .int 0, .ptr none, .int 0, .int 0, exPtr 0 4, .int 1, exPtr 0 9, .int 0, .int 1]
    else if b = .stack 2 then some [.ptr (some (.heap 0, 0)), .int 1, .int 4, .int 1, .int 0]
    else if b = .heap 0 then some [.int 123, .undef, .undef, .undef] else none
  stk := 3

example : (match runFun (cx toy 100 1) Src.l8w8jwt_write_claims [exPtr 2 0, exPtr 1 0, .int 3] calm exBuilder with
    | .ok (v, st) => some (v, st.heap.live, [st.mem (.heap 0), st.mem (.heap 1), st.mem (.stack 2), st.mem (.stack 3)])
    | _ => none) = some (.int 0, [0], [some (cells (str "{\"a\\\"b\":\"x\\/y\\n\",\"x\":17")), none,
      some [.ptr (some (.heap 0, 0)), .int 23, .int 4, .int 1, .int 0], none]) := by decide +kernel

/-- The same builder; the only claim has the key `é` and the value `x`. -/
def exHigh : St where
  fr := []
  heap := { tick := 1, live := [0] }
  mem := fun b => if b = .stack 0 then some (cells [195, 169, 0, 120, 0]) else if b = .stack 1 then
      some [exPtr 0 0, .int 0, exPtr 0 3, .int 0, .int 0]
    else if b = .stack 2 then some [.ptr (some (.heap 0, 0)), .int 1, .int 4, .int 1, .int 0]
    else if b = .heap 0 then some [.int 123, .undef, .undef, .undef] else none
  stk := 3

/-- The condition on signed `char` in `C76_write_claims_text` is needed: with signed `char`, the text has undefined behaviour on a
claim with the key `é`, with unsigned `char` it has not (src/claim.c:98). -/
theorem C76_signed_char_text :
    (∃ e, runFun (cx { toy with charSigned := true } 100 1) Src.l8w8jwt_write_claims [exPtr 2 0, exPtr 1 0, .int 1] calm exHigh = .error (.ub e)) ∧
    ∃ st, runFun (cx { toy with charSigned := false } 100 1) Src.l8w8jwt_write_claims [exPtr 2 0, exPtr 1 0, .int 1] calm exHigh = .ok (.int 0, st) := by
  constructor
  · have : (match runFun (cx { toy with charSigned := true } 100 1) Src.l8w8jwt_write_claims [exPtr 2 0, exPtr 1 0, .int 1] calm exHigh with
        | .error (.ub _) => true | _ => false) = true := by decide +kernel
    split at this
    · rename_i e h
      exact ⟨e, h⟩
    · cases this
  · have : (match runFun (cx { toy with charSigned := false } 100 1) Src.l8w8jwt_write_claims [exPtr 2 0, exPtr 1 0, .int 1] calm exHigh with
        | .ok (.int 0, _) => true | _ => false) = true := by decide +kernel
    split at this
    · rename_i st h
      exact ⟨st, h⟩
    · cases this

end L8w8jwt.C
