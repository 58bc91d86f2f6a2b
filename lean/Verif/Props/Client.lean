import Verif.Spec.Client
import Verif.Props.FreeClaims
import Verif.Props.EncodeDefined
import Verif.Props.Base64
import Verif.Props.Answer
/-!
# Property C68: histories of calls

Clients that call the functions in any order and release each result once.
-/

namespace L8w8jwt
open Spec

variable {s : Sched} {h h' h0 : Heap} {env : Env} {c c' : Client}

theorem blockIds_eq (p : Ptr) : blockIds p = p.ids := by cases p <;> rfl

theorem blocks_claims (a : ClaimArr) (n : Nat) : (Thing.claims a n).blocks = arrIds a := by
  simp only [Thing.blocks, arrIds, claimIds, blockIds_eq]

/-- What is known about a thing that the client holds. -/
def Held : Thing → Prop
  | .block _ => True
  | .claims a n => (∃ ds, Views a.items ds) ∧ (a.blk = none → a.items = []) ∧ n = a.items.length

/-- What holds between calls: since `h0`, what the client holds and what was lost has been allocated and is still live. -/
def ClientInv (h0 : Heap) (c : Client) (leak : List Nat) : Prop := Mem h0 c.heap c.blocks leak ∧ ∀ t ∈ c.things, Held t

/-- A function that allocates something for the client. -/
theorem ClientInv.get {α : Type} {leak leak' : List Nat} (i : ClientInv h0 c leak) {got : α → List Thing} {r : α}
    (m : Mem c.heap h' ((got r).flatMap Thing.blocks) leak') (hg : ∀ t ∈ got r, Held t) :
    ClientInv h0 ⟨h', got r ++ c.things⟩ (leak ++ leak') := by
  refine ⟨(i.1.trans m).perm1 ?_, fun t ht => ?_⟩
  · simp only [Client.blocks, List.flatMap_append]
    exact List.perm_append_comm
  · rcases List.mem_append.mp ht with ht | ht
    · exact hg t ht
    · exact i.2 t ht

theorem get_ok {α : Type} {got : α → List Thing} {x : Except UB (α × Heap)} (he : c.get got x = .ok c') :
    ∃ r h1, x = .ok (r, h1) ∧ c' = ⟨h1, got r ++ c.things⟩ := by
  cases x with
  | error e => cases he
  | ok q => obtain ⟨r, h1⟩ := q; cases he; exact ⟨r, h1, rfl, rfl⟩

theorem gotPtr_held (o : Option Ptr) : ∀ t ∈ gotPtr o, Held t := by
  intro t ht
  unfold gotPtr at ht
  split at ht
  · simp only [List.mem_singleton] at ht; subst ht; trivial
  · cases ht

/-- The blocks behind a pointer that may have been written. -/
theorem gotPtr_blocks (o : Option Ptr) : (gotPtr o).flatMap Thing.blocks = match o with | some q => q.ids | none => [] := by
  cases o with
  | none => rfl
  | some q => cases q <;> rfl

theorem gotSeg_blocks (o : Option (Ptr × Nat)) : (gotSeg o).flatMap Thing.blocks = givenIds o := by
  cases o with
  | none => rfl
  | some q => obtain ⟨q, n⟩ := q; cases q <;> rfl

/-- Removing one element of a list. -/
theorem perm_eraseIdx {α : Type} (l : List α) (i : Nat) (x : α) (hx : l[i]? = some x) : l.Perm (x :: l.eraseIdx i) := by
  induction l generalizing i with
  | nil => simp at hx
  | cons y t ih =>
    cases i with
    | zero => simp only [List.getElem?_cons_zero, Option.some.injEq] at hx; subst hx; exact List.Perm.refl _
    | succ i =>
      simp only [List.getElem?_cons_succ] at hx
      simp only [List.eraseIdx_cons_succ]
      exact ((ih i hx).cons y).trans (List.Perm.swap x y _)

theorem ClientInv.at {leak : List Nat} (i : ClientInv h0 c leak) {k : Nat} {t : Thing} (ht : c.things[k]? = some t) :
    Mem h0 c.heap (t.blocks ++ (c.things.eraseIdx k).flatMap Thing.blocks) leak ∧ Held t := by
  refine ⟨i.1.perm1 ?_, i.2 t (List.mem_of_getElem? ht)⟩
  have := (perm_eraseIdx c.things k t ht).flatMap_right Thing.blocks
  simpa [Client.blocks] using this

/-- Releasing something that the client holds is defined. -/
theorem ClientInv.release {leak : List Nat} (i : ClientInv h0 c leak) (env : Env) (s : Sched) (k : Nat) :
    ∃ c', (Call.release k).run env s c = .ok c' ∧ c'.things = c.things.eraseIdx k ∧ ClientInv h0 c' leak := by
  cases ht : c.things[k]? with
  | none =>
    refine ⟨c, by simp only [Call.run, ht], ?_, i⟩
    rw [List.eraseIdx_of_length_le]
    exact List.getElem?_eq_none_iff.mp ht
  | some t =>
    obtain ⟨m, hh⟩ := i.at ht
    have hrest : ∀ u ∈ c.things.eraseIdx k, Held u := fun u hu => i.2 u (List.mem_of_mem_eraseIdx hu)
    cases t with
    | block b =>
      have := wp_freeMem (s := s) (m := (c.things.eraseIdx k).flatMap Thing.blocks) (k := leak) (some b)
        (fun _ h1 => Mem h0 h1 ((c.things.eraseIdx k).flatMap Thing.blocks) leak) (fun _ => False) m (fun _ _ m1 => m1)
      obtain ⟨_, h1, e, m1⟩ := wp_iff_exists.mp this
      exact ⟨⟨h1, c.things.eraseIdx k⟩, by simp only [Call.run, ht, e, Client.drop], rfl, m1, hrest⟩
    | claims a n =>
      obtain ⟨⟨ds, hv⟩, hb, rfl⟩ := hh
      have := wp_freeClaims (s := s) (m := (c.things.eraseIdx k).flatMap Thing.blocks) (leak := leak) hv hb (fun _ => False)
        (by rw [blocks_claims, arrIds, List.append_assoc] at m; exact m)
      obtain ⟨_, h1, e, m1⟩ := wp_iff_exists.mp this
      exact ⟨⟨h1, c.things.eraseIdx k⟩, by simp only [Call.run, ht, e, Client.drop], rfl, m1, hrest⟩

/-! ## The functions -/

theorem encode_mem {q : Option EncParams} {r : EncOut} (he : encode env q s h = .ok (r, h')) :
    Mem h h' ((gotPtr r.out).flatMap Thing.blocks) [] := by
  cases q with
  | none =>
    cases he
    exact Mem.refl h
  | some p =>
    by_cases hv : validateEncodingParams (some p) = L8W8JWT_SUCCESS
    case neg => rw [C16_encode_invalid _ hv] at he; cases he; exact Mem.refl h
    have k := wp_iff_forall.mp (wp_encode_any (s := s) (h := h) env p hv) r h' he
    by_cases hr : r.rc = L8W8JWT_SUCCESS
    · obtain ⟨-, hdr, pay, sig, tok, id, msg, -, -, -, -, -, -, e, -, l, ht, -⟩ := k.success hr
      have hi := k.tick.2 _ e
      rw [e]
      refine Mem.of_owns ⟨l, List.pairwise_singleton _ _, fun i hi' => ?_, k.tick.1⟩
      have : i = id := by simpa [gotPtr, Thing.blocks] using hi'
      subst this
      exact ⟨ht, hi⟩
    · obtain ⟨-, e, l, -⟩ := k.failure hr
      have : gotPtr r.out = [] := by rcases e with e | e <;> rw [e] <;> rfl
      rw [this]
      exact Mem.of_owns (Owns.of_keeps ⟨l, k.tick.1⟩)

theorem base64Encode_mem {u o l : Bool} {d : Option Bytes} {n : Nat} {r : BufOut} (he : base64Encode u d n o l s h = .ok (r, h')) :
    Mem h h' ((gotPtr r.out).flatMap Thing.blocks) [] := by
  revert he
  have : wp (base64Encode u d n o l) s h (fun r h' => Mem h h' ((gotPtr r.out).flatMap Thing.blocks) []) (fun _ => True) := by
    unfold base64Encode
    split
    · exact Mem.refl h
    · split
      · exact Mem.refl h
      · split
        · exact Mem.refl h
        · split
          · exact Mem.refl h
          · rw [wp_bind, wp_alloc]
            refine ⟨fun _ => (Mem.refl h).keeps (Keeps.tick h), fun _ => ?_⟩
            simp only [wp_bind, wp_lift]
            rw [rwp_iff_forall]
            intro x _
            rw [rwp_iff_forall]
            rintro ⟨w, k⟩ _
            simp only
            split
            · trivial
            · exact (Mem.refl h).alloc
  exact wp_iff_forall.mp this r h'

theorem base64Decode_mem {u o l : Bool} {d : Option Bytes} {n : Nat} {r : BufOut} (he : base64Decode u d n o l s h = .ok (r, h')) :
    Mem h h' ((gotPtr r.out).flatMap Thing.blocks) [] := by
  revert he
  have : wp (base64Decode u d n o l) s h (fun r h' => Mem h h' ((gotPtr r.out).flatMap Thing.blocks) []) (fun _ => True) := by
    unfold base64Decode
    split
    · exact Mem.refl h
    · split
      · exact Mem.refl h
      · split
        · exact Mem.refl h
        · simp only [wp_bind, wp_lift]
          rw [rwp_iff_forall]
          intro x _
          rw [rwp_iff_forall]
          intro y _
          split
          · exact Mem.refl h
          · rw [wp_bind, wp_alloc]
            refine ⟨fun _ => (Mem.refl h).keeps (Keeps.tick h), fun _ => ?_⟩
            simp only
            split
            · rw [wp_bind]
              exact wp_freeMem (m := []) (k := []) _ _ _ (Mem.refl h).alloc (fun _ _ m => m)
            · split
              · trivial
              · exact (Mem.refl h).alloc
  exact wp_iff_forall.mp this r h'

theorem tokenArg {q : DecParams} (ht : TokenArg (some q)) (hv : validateDecodingParams env (some q) = L8W8JWT_SUCCESS) : ∃ tok, TokenMem q tok := by
  refine ht q rfl fun hj => ?_
  unfold validateDecodingParams at hv
  simp [hj] at hv

theorem decode_mem (hc : CryptoOk env.crypto) {q : Option DecParams} (ht : TokenArg q) {a b x : Bool} {r : DecOut}
    (he : decode env q a b x s h = .ok (r, h')) : ∃ leak, Mem h h' ((gotClaims r).flatMap Thing.blocks) leak ∧
      (∀ t ∈ gotClaims r, Held t) ∧ (TidyToken env s q → leak = []) := by
  rcases decode_returns he with ⟨hr, -, rfl, -⟩ | ⟨p, st, g2, rfl, rfl, hb, hv, -, -⟩
  · rw [hr]; exact ⟨[], Mem.refl _, (fun t ht => by cases ht), fun _ => rfl⟩
  · obtain ⟨tok, ht⟩ := tokenArg ht hv
    have := wp_iff_forall.mp (wp_decode (s := s) (h := h) hc hv ht b x hb (fun _ => True) (Or.inr (fun _ => trivial))) r h' he
    obtain ⟨⟨st, ho, ⟨ds, hvw⟩, rfl⟩, leak, hm, hk⟩ := this
    refine ⟨leak, ?_, ?_, fun hl => ?_⟩
    · revert hm
      unfold decOut
      split
      · exact (fun hm => hm)
      · intro hm
        simpa [gotClaims, blocks_claims, outIds] using hm
    · unfold decOut
      split
      · intro t ht; cases ht
      · intro t ht
        simp only [gotClaims, List.mem_singleton] at ht
        subst ht
        exact ⟨⟨ds, hvw⟩, ho.blk, rfl⟩
    · obtain ⟨h1, h2⟩ := hl p tok rfl ht
      rcases hk.none (roomFor_few h2) with hk | hk
      · exact hk
      · exact absurd (leakyToken_iff.mp hk) h1

theorem raw_held (r : RawOut) : ∀ t ∈ gotSeg r.header ++ (gotSeg r.payload ++ gotSeg r.signature), Held t := by
  intro t ht
  simp only [List.mem_append] at ht
  rcases ht with ht | ht | ht <;> exact gotPtr_held _ t ht

theorem raw_blocks (r : RawOut) : (gotSeg r.header ++ (gotSeg r.payload ++ gotSeg r.signature)).flatMap Thing.blocks = rawIds r := by
  simp only [List.flatMap_append, gotSeg_blocks, rawIds]

theorem decodeRaw_mem (hc : CryptoOk env.crypto) {q : Option DecParams} (ht : TokenArg q) {a : Bool} {x : RawArgs} {r : RawOut}
    (he : decodeRaw env q a x s h = .ok (r, h')) : ∃ leak, Mem h h' (rawIds r) leak ∧ (TidyToken env s q → leak = []) := by
  rcases decodeRaw_returns he with ⟨hr, -, rfl, -⟩ | ⟨p, st, g2, rfl, rfl, hb, hv, -, -⟩
  · rw [hr]; exact ⟨[], Mem.refl _, fun _ => rfl⟩
  · obtain ⟨tok, ht⟩ := tokenArg ht hv
    have := wp_iff_forall.mp (wp_decodeRaw (s := s) (h := h) hc hv ht x hb (fun _ => True) (Or.inr (fun _ => trivial))) r h' he
    obtain ⟨-, leak, hm, hk⟩ := this
    refine ⟨leak, hm, fun hl => ?_⟩
    obtain ⟨h1, h2⟩ := hl p tok rfl ht
    rcases hk.none (roomFor_few h2) with hk | hk
    · exact hk
    · exact absurd (leakyToken_iff.mp hk) h1

theorem decodeRawNv_mem {q : Option DecParams} (ht : TokenArg q) {x : RawArgs} {r : RawOut}
    (he : decodeRawNoValidation env q x s h = .ok (r, h')) : Mem h h' (rawIds r) [] := by
  cases q with
  | none => cases he; exact Mem.refl h
  | some p =>
    by_cases h1 : ((x.header && x.payload && x.signature) || x.bad) = true
    · simp only [decodeRawNoValidation, if_pos h1] at he
      cases he; exact Mem.refl h
    · by_cases hv : validateDecodingParams env (some p) = L8W8JWT_SUCCESS
      · simp only [Bool.or_eq_true, not_or, Bool.not_eq_true] at h1
        obtain ⟨tok, ht⟩ := tokenArg ht hv
        exact (wp_iff_forall.mp (wp_decodeRawNv (s := s) (h := h) hv ht x h1.2 h1.1 (fun _ => True)) r h' he).2
      · simp only [decodeRawNoValidation, if_neg h1, ne_eq, hv, not_false_eq_true, if_true] at he
        cases he; exact Mem.refl h

/-- One step. -/
theorem ClientInv.run {leak : List Nat} (i : ClientInv h0 c leak) (hc : CryptoOk env.crypto) {x : Call} (ht : x.Tokens)
    (he : x.run env s c = .ok c') : ∃ leak', ClientInv h0 c' (leak ++ leak') ∧ (x.Tidy env s → leak' = []) := by
  cases x with
  | encode q =>
    obtain ⟨r, h1, e, rfl⟩ := get_ok he
    exact ⟨[], i.get (got := fun r : EncOut => gotPtr r.out) (encode_mem e) (gotPtr_held _), fun _ => rfl⟩
  | decode q v a n =>
    obtain ⟨r, h1, e, rfl⟩ := get_ok he
    obtain ⟨leak', m, hh, hl⟩ := decode_mem hc ht e
    exact ⟨leak', i.get m hh, hl⟩
  | decodeRaw q v y =>
    obtain ⟨r, h1, e, rfl⟩ := get_ok he
    obtain ⟨leak', m, hl⟩ := decodeRaw_mem hc ht e
    exact ⟨leak', i.get (got := fun r : RawOut => gotSeg r.header ++ (gotSeg r.payload ++ gotSeg r.signature))
      (by simp only [raw_blocks]; exact m) (raw_held r), hl⟩
  | decodeRawNoValidation q y =>
    obtain ⟨r, h1, e, rfl⟩ := get_ok he
    exact ⟨[], i.get (got := fun r : RawOut => gotSeg r.header ++ (gotSeg r.payload ++ gotSeg r.signature))
      (by simp only [raw_blocks]; exact decodeRawNv_mem ht e) (raw_held r), fun _ => rfl⟩
  | base64Encode u d n o l =>
    obtain ⟨r, h1, e, rfl⟩ := get_ok he
    exact ⟨[], i.get (got := fun r : BufOut => gotPtr r.out) (base64Encode_mem e) (gotPtr_held _), fun _ => rfl⟩
  | base64Decode u d n o l =>
    obtain ⟨r, h1, e, rfl⟩ := get_ok he
    exact ⟨[], i.get (got := fun r : BufOut => gotPtr r.out) (base64Decode_mem e) (gotPtr_held _), fun _ => rfl⟩
  | release k =>
    obtain ⟨c2, e, -, i2⟩ := i.release env s k
    rw [e] at he
    cases he
    exact ⟨[], by simpa using i2, fun _ => rfl⟩

/-- Any number of steps. -/
theorem ClientInv.history {l : List (Env × Call)} {leak : List Nat} (i : ClientInv h0 c leak) (hl : ∀ e ∈ l, CryptoOk e.1.crypto ∧ e.2.Tokens)
    (he : Spec.history s l c = .ok c') : ∃ leak', ClientInv h0 c' leak' ∧ ((∀ e ∈ l, e.2.Tidy e.1 s) → leak' = leak) := by
  induction l generalizing c leak with
  | nil => cases he; exact ⟨leak, i, fun _ => rfl⟩
  | cons e t ih =>
    obtain ⟨env, x⟩ := e
    unfold Spec.history at he
    cases hx : x.run env s c with
    | error u => rw [hx] at he; cases he
    | ok c1 =>
      rw [hx] at he
      obtain ⟨l1, i1, k1⟩ := i.run (hl (env, x) List.mem_cons_self).1 (hl (env, x) List.mem_cons_self).2 hx
      obtain ⟨l2, i2, k2⟩ := ih i1 (fun e he => hl e (by simp [he])) he
      refine ⟨l2, i2, fun hk => ?_⟩
      rw [k2 fun e he => hk e (by simp [he]), k1 (hk (env, x) List.mem_cons_self), List.append_nil]

theorem sound_start (h0 : Heap) : ClientInv h0 ⟨h0, []⟩ [] := ⟨Mem.refl h0, fun _ ht => by cases ht⟩

/-- **C68**: whatever a client did before, in any order and with any arguments (tokens being strings), with any failures of the
allocator, whatever leaks: everything that it holds can be released, and it does not hold the same block twice, nor one that it did not
get. -/
theorem C68_held {l : List (Env × Call)} (hl : ∀ e ∈ l, CryptoOk e.1.crypto ∧ e.2.Tokens) (he : history s l ⟨h0, []⟩ = .ok c) :
    (∀ env k, ∃ c', (Call.release k).run env s c = .ok c' ∧ c'.things = c.things.eraseIdx k) ∧
    c.blocks.Nodup ∧ ∀ i ∈ c.blocks, i ∈ c.heap.live ∧ h0.tick ≤ i := by
  obtain ⟨leak, i, -⟩ := (sound_start h0).history hl he
  refine ⟨fun env k => ?_, ?_, fun j hj => ?_⟩
  · obtain ⟨c', e, ht, -⟩ := i.release env s k
    exact ⟨c', e, ht⟩
  · obtain ⟨l, o, p⟩ := i.1
    have hn : l.Nodup := o.desc.imp fun h => Nat.ne_of_gt h
    exact (List.nodup_append.mp (p.nodup_iff.mp hn)).1
  · obtain ⟨l, o, p⟩ := i.1
    have hm : j ∈ l := p.mem_iff.mpr (List.mem_append_left _ hj)
    exact ⟨by rw [o.live]; exact List.mem_append_left _ hm, (o.fresh j hm).1⟩

/-- **C68**, partial: if no token is one of those for which the decoder loses memory, then exactly what the client holds is live, besides
what was live before. Missing: leaky tokens and failures to grow the claims buffer, for which it is false (`C68_exhaust_false`,
`C49_grow_leak_false`). -/
theorem C68_balance_partial {l : List (Env × Call)} (hl : ∀ e ∈ l, CryptoOk e.1.crypto ∧ e.2.Tokens) (ht : ∀ e ∈ l, e.2.Tidy e.1 s)
    (he : history s l ⟨h0, []⟩ = .ok c) : c.heap.live.Perm (c.blocks ++ h0.live) := by
  obtain ⟨leak, i, hk⟩ := (sound_start h0).history hl he
  rw [hk ht] at i
  exact i.1.live

theorem history_append {l m : List (Env × Call)} (he : history s l c = .ok c') : history s (l ++ m) c = history s m c' := by
  induction l generalizing c with
  | nil => cases he; rfl
  | cons e t ih =>
    obtain ⟨env, x⟩ := e
    simp only [List.cons_append, Spec.history] at he ⊢
    cases hx : x.run env s c with
    | error u => rw [hx] at he; cases he
    | ok c1 => rw [hx] at he; exact ih he

theorem ClientInv.releaseAll {leak : List Nat} (i : ClientInv h0 c leak) (env : Env) (s : Sched) :
    ∃ c', Spec.history s (List.replicate c.things.length (env, .release 0)) c = .ok c' ∧ c'.things = [] ∧ ClientInv h0 c' leak := by
  generalize hn : c.things.length = n
  induction n generalizing c with
  | zero => exact ⟨c, rfl, List.eq_nil_of_length_eq_zero hn, i⟩
  | succ n ih =>
    obtain ⟨c1, e1, t1, i1⟩ := i.release env s 0
    have hn1 : c1.things.length = n := by
      rw [t1, List.length_eraseIdx, hn]
      simp
    obtain ⟨c2, e2, t2, i2⟩ := ih i1 hn1
    exact ⟨c2, by simp only [List.replicate_succ, Spec.history, e1, e2], t2, i2⟩

/-- **C68**: at any moment the client can release everything it holds, one thing after the other; if no token was one of those for which
the decoder loses memory, the heap is then as it was at the beginning. -/
theorem C68_release_all {l : List (Env × Call)} (hl : ∀ e ∈ l, CryptoOk e.1.crypto ∧ e.2.Tokens) (he : history s l ⟨h0, []⟩ = .ok c)
    (env : Env) : ∃ c', history s (l ++ List.replicate c.things.length (env, .release 0)) ⟨h0, []⟩ = .ok c' ∧ c'.things = [] ∧
      ((∀ e ∈ l, e.2.Tidy e.1 s) → c'.heap.live.Perm h0.live) := by
  obtain ⟨leak, i, hk⟩ := (sound_start h0).history hl he
  obtain ⟨c', e, ht, i'⟩ := i.releaseAll env s
  refine ⟨c', by rw [history_append he, e], ht, fun hx => ?_⟩
  rw [hk hx] at i'
  have := i'.1.live
  simpa [Client.blocks, ht] using this

/-! ## Definedness -/

theorem get_defined {α : Type} {got : α → List Thing} {x : Except UB (α × Heap)} (he : ∃ r h1, x = .ok (r, h1)) : ∃ c', c.get got x = .ok c' := by
  obtain ⟨r, h1, rfl⟩ := he
  exact ⟨_, rfl⟩

theorem fine_run {leak : List Nat} (i : ClientInv h0 c leak) (hc : CryptoOk env.crypto) {x : Call} (hf : x.Fine env s) :
    x.Tokens ∧ ∃ c', x.run env s c = .ok c' := by
  cases x with
  | encode q =>
    refine ⟨trivial, get_defined ?_⟩
    cases q with
    | none => exact ⟨_, _, rfl⟩
    | some p =>
      obtain ⟨h1, h2, h3, h4⟩ := hf p rfl
      exact C64_encode_defined_oom hc h1 h2 h3 h4
  | decode q v a n =>
    obtain ⟨ht, hf⟩ := hf
    refine ⟨ht, get_defined ?_⟩
    cases q with
    | none => exact ⟨_, _, rfl⟩
    | some p =>
      by_cases hv : validateDecodingParams env (some p) = L8W8JWT_SUCCESS
      · obtain ⟨tok, ht⟩ := tokenArg ht hv
        exact (C47_decode_defined_partial hc hv ht (hf p tok rfl ht) v a n {}).1
      · unfold decode
        simp only
        split
        · exact ⟨_, _, rfl⟩
        · exact ⟨_, _, rfl⟩
  | decodeRaw q v y =>
    obtain ⟨ht, hf⟩ := hf
    refine ⟨ht, get_defined ?_⟩
    cases q with
    | none => exact ⟨_, _, rfl⟩
    | some p =>
      by_cases hv : validateDecodingParams env (some p) = L8W8JWT_SUCCESS
      · obtain ⟨tok, ht⟩ := tokenArg ht hv
        exact (C47_decode_defined_partial hc hv ht (hf p tok rfl ht) v false false y).2
      · unfold decodeRaw
        simp only
        split
        · exact ⟨_, _, rfl⟩
        · exact ⟨_, _, rfl⟩
  | decodeRawNoValidation q y =>
    refine ⟨hf, get_defined ?_⟩
    cases q with
    | none => exact ⟨_, _, rfl⟩
    | some p =>
      by_cases h1 : ((y.header && y.payload && y.signature) || y.bad) = true
      · exact ⟨_, _, by simp only [decodeRawNoValidation, if_pos h1]; rfl⟩
      · by_cases hv : validateDecodingParams env (some p) = L8W8JWT_SUCCESS
        · simp only [Bool.or_eq_true, not_or, Bool.not_eq_true] at h1
          obtain ⟨tok, ht⟩ := tokenArg hf hv
          obtain ⟨r, h', e, -⟩ := wp_iff_exists.mp (wp_decodeRawNv (s := s) (h := c.heap) hv ht y h1.2 h1.1 (fun _ => False))
          exact ⟨r, h', e⟩
        · exact ⟨_, _, by simp only [decodeRawNoValidation, if_neg h1, ne_eq, hv, not_false_eq_true, if_true]; rfl⟩
  | base64Encode u d n o l =>
    refine ⟨trivial, get_defined ?_⟩
    cases d with
    | none => exact ⟨_, _, rfl⟩
    | some mem =>
      obtain ⟨h1, h2, h3⟩ := hf mem rfl
      by_cases ho : (o || l) = true
      · exact ⟨_, _, by simp only [base64Encode, if_pos ho]; rfl⟩
      · have ho' : o = false ∧ l = false := by cases o <;> cases l <;> simp_all
        obtain ⟨rfl, rfl⟩ := ho'
        by_cases h0 : n = 0
        · subst h0; exact ⟨_, _, rfl⟩
        · rw [base64Encode_eq u mem n s c.heap h1 h0 h2 h3]
          split <;> exact ⟨_, _, rfl⟩
  | base64Decode u d n o l =>
    refine ⟨trivial, get_defined ?_⟩
    cases d with
    | none => exact ⟨_, _, rfl⟩
    | some mem =>
      by_cases ho : (o || l) = true
      · exact ⟨_, _, by simp only [base64Decode, if_pos ho]; rfl⟩
      · have ho' : o = false ∧ l = false := by cases o <;> cases l <;> simp_all
        obtain ⟨rfl, rfl⟩ := ho'
        obtain ⟨r, h', e, -⟩ := C04_base64_decode_bounds u mem n s c.heap (hf mem rfl)
        exact ⟨r, h', e⟩
  | release k =>
    obtain ⟨c', e, -⟩ := i.release env s k
    exact ⟨trivial, c', e⟩

/-- **C68**, partial: a history of calls each of which satisfies what its function requires is defined as a whole: there is no interference
between the calls. Missing: calls that do not, for which it is false (C47, C64). -/
theorem C68_defined_partial {l : List (Env × Call)} (hl : ∀ e ∈ l, CryptoOk e.1.crypto ∧ e.2.Fine e.1 s) :
    ∃ c, history s l ⟨h0, []⟩ = .ok c := by
  have key : ∀ {c : Client} {leak : List Nat}, ClientInv h0 c leak → ∃ c', history s l c = .ok c' := by
    induction l with
    | nil => exact fun {c} _ _ => ⟨c, rfl⟩
    | cons e t ih =>
      obtain ⟨env, x⟩ := e
      intro c leak i
      obtain ⟨hc, hf⟩ := hl (env, x) List.mem_cons_self
      obtain ⟨ht, c1, e1⟩ := fine_run i hc hf
      obtain ⟨leak1, i1, -⟩ := i.run hc ht e1
      simp only [Spec.history, e1]
      exact ih (fun e he => hl e (by simp [he])) i1
  exact key (sound_start h0)

/-! ## Exhausting the memory -/

/-- A leaky text is rejected, without looking at slots behind the tokens. -/
theorem leaky_parsed {num : Bytes → Nat} {u : Bytes} (hl : Leaky (cString u)) {ok : Bool} {ds : List DClaim} {n : Nat} {b : Behind}
    (hp : Parsed num (cString u) ok ds n b) : ok = false ∧ b = .none := by
  obtain ⟨⟨n, hn, h64⟩, hi⟩ := hl
  cases hp with
  | empty hs =>
    have h1 := jsmnCount_iff.mpr hn
    rw [jsmnCount_iff.mpr (lexes_stops hs)] at h1
    cases h1
    omega
  | noItems => exact ⟨rfl, rfl⟩
  | noObject h1 => exact absurd h1 (hi _)
  | object h1 => exact absurd h1 (hi _)

/-- **C68** is false without that restriction: whoever can send tokens with a header of more than 64 JSON tokens and an unclosed bracket
(the signature need not be right, and the header is not looked at before) makes every call of `l8w8jwt_decode` lose a block, so that any
number of blocks can be lost, while the client holds nothing that it could release. -/
theorem C68_exhaust_false {p : DecParams} {tok x y : Bytes} (hc : CryptoOk env.crypto) (hv : validateDecodingParams env (some p) = L8W8JWT_SUCCESS)
    (ht : TokenMem p tok) (gd : s.good) (hr : VerKeyReadable p) (hx : ExpectOk p) (hn : NowOk env.now)
    (hs : SegCode p.alg tok L8W8JWT_SUCCESS) (hf : ∀ rc, ¬ VerifyFails env p tok rc)
    (hver : p.alg ≠ -1 → ∀ a b c, ThreeParts tok a b c → VerDefined env p (a ++ 46 :: b) c)
    (hp : Parts tok x y) (hl : Leaky (readText x)) (n : Nat) :
    ∃ c, history s (List.replicate n (env, .decode (some p) false false false)) ⟨h0, []⟩ = .ok c ∧ c.things = [] ∧
      c.heap.live.length = h0.live.length + n := by
  have hd : DecDefined env p tok := by
    refine fun _ => ⟨hver, fun _ a b hp' => ?_⟩
    obtain ⟨rfl, rfl⟩ := parts_unique hp hp'
    refine ⟨fun ok ds n b hx => by rw [(leaky_parsed hl hx).2]; trivial, ?_, ?_⟩
    · rintro ⟨ds, n, b, ha⟩
      exact absurd (leaky_parsed hl ha).1 (by decide)
    · intro ds1 n1 b1 ds2 n2 b2 ha
      exact absurd (leaky_parsed hl ha).1 (by decide)
  have acc : Accepts env x false := by
    obtain ⟨ok, ds, n, b, ha⟩ := parsed_exist env.checknum (readText x)
    obtain ⟨rfl, -⟩ := leaky_parsed hl ha
    exact ⟨ds, n, b, ha⟩
  have ans : Answer env p tok L8W8JWT_DECODE_FAILED_INVALID_TOKEN_FORMAT 0xffffffff#32 [] :=
    .failed (.claims hs hf hp (Or.inl acc)) (by decide)
  induction n generalizing h0 with
  | zero => exact ⟨⟨h0, []⟩, rfl, rfl, rfl⟩
  | succ n ih =>
    obtain ⟨r, h', rc, v, ds, he, ha, e1, e2, e3, -⟩ := C62_decode (h := h0) hc hv ht gd hr hx hn hd
    obtain ⟨rfl, rfl, rfl⟩ := answer_unique ans ha
    obtain ⟨i, hi⟩ := C49_leak_header_false hc ht gd hp hl he e1
    obtain ⟨c, hh, ht', hlen⟩ := ih (h0 := h')
    refine ⟨c, ?_, ht', ?_⟩
    · simp only [List.replicate_succ, Spec.history, Call.run, he, Client.get, gotClaims, (e3 (by decide)).1, List.nil_append]
      exact hh
    · rw [hlen, hi.length_eq, List.length_cons]
      omega

/-- With HMAC and a key that contains no certificate, checking a signature never fails with an error. -/
theorem hmac_no_fail {alg : Int} {key msg : Bytes} {name : String} {md : Md} (ha : alg? alg = some (name, .hmac md))
    (hn : ¬ contains (str "-----BEGIN CERTIFICATE-----") (cString key)) (rc : Nat) : ¬ VerFails env alg key msg rc := by
  intro hf
  cases hf with
  | cert h1 => exact h1 fun hx => absurd hx hn
  | hash _ h2 h3 => rw [ha] at h2; cases h2; cases h3
  | key _ h2 h3 => rw [ha] at h2; cases h2; cases h3
  | ec _ h2 => rw [ha] at h2; cases h2
  | edOff _ h2 => rw [ha] at h2; cases h2
  | edKey _ h2 => rw [ha] at h2; cases h2

/-- With HMAC and a short key, checking a signature that is long enough is defined. -/
theorem hmac_defined {p : DecParams} {msg text : Bytes} {name : String} {md : Md} (ha : alg? p.alg = some (name, .hmac md))
    (hk : (verKey p).length < 8192) (hr : md.len ≤ room text) : VerDefined env p msg text where
  nul := Or.inl hk
  cert _ := Or.inl hk
  pem _ _ _ _ _ _ _ := Or.inl hk
  hmac _ _ _ h2 _ := by rw [ha] at h2; cases h2; exact hr
  pss _ _ _ h2 := by rw [ha] at h2; cases h2
  ecdsa _ _ _ _ _ _ h2 := by rw [ha] at h2; cases h2
  eddsa _ _ h2 := by rw [ha] at h2; cases h2

/-- A history: encoding, decoding, and giving back some of the results. -/
def session : List (Env × Call) :=
  [(toy, .encode (some toyParams)), (toy, .decode (some (toyDec (mkTok hdr1 pay1 (toyMac hdr1 pay1)))) false false false),
   (toy, .base64Encode true (some (str "abc")) 3 false false), (toy, .release 1),
   (toy, .decodeRaw (some (toyDec (mkTok hdr1 pay1 (toyMac hdr1 pay1)))) false {}), (toy, .release 4),
   (toy, .base64Decode true (some (str "YWJj")) 4 false false)]

/-- How many things and blocks the client holds at the end, and how many blocks are live. -/
def holding (l : List (Env × Call)) (s : Sched) : Option (Nat × Nat × Nat) :=
  match history s l ⟨heap0, []⟩ with
  | .ok c => some (c.things.length, c.blocks.length, c.heap.live.length)
  | .error _ => none

/-- In the middle of a history and at its end. -/
example : holding session calm = some (5, 5, 5) ∧ holding (session.take 3) calm = some (3, 7, 7) ∧
    holding (session ++ List.replicate 5 (toy, .release 0)) calm = some (0, 0, 0) := by decide +kernel

/-- The header of `C49_leak_false`, at any time, any number of times, with a key that the sender does not know. -/
example (n : Nat) : ∃ c, history calm (List.replicate n (toy, .decode (some (toyDec (mkTokB leakJson (str pay1) (List.replicate 32 65)))) false false false))
    ⟨heap0, []⟩ = .ok c ∧ c.things = [] ∧ c.heap.live.length = n := by
  have h0 : (0 : UInt8) ∉ mkTokB leakJson (str pay1) (List.replicate 32 65) := by decide +kernel
  have hl : (mkTokB leakJson (str pay1) (List.replicate 32 65)).length < 2 ^ 63 := by decide +kernel
  have h3 : ThreeParts (mkTokB leakJson (str pay1) (List.replicate 32 65)) (b64 true leakJson) (b64 true (str pay1)) (b64 true (List.replicate 32 65)) :=
    ⟨rfl, dot_not_mem_b64 _, dot_not_mem_b64 _⟩
  have hlk : Leaky (readText (b64 true leakJson)) := by
    rw [readText, ← leaky_iff, jsonOf, b64Decode_b64 (by decide +kernel), Option.getD_some]
    exact ⟨65, .part, by decide +kernel, by decide, by decide +kernel⟩
  have := C68_exhaust_false (s := calm) (h0 := heap0) (x := b64 true leakJson) (y := b64 true (str pay1)) toyOk
    (by decide +kernel : validateDecodingParams toy (some (toyDec (mkTokB leakJson (str pay1) (List.replicate 32 65)))) = L8W8JWT_SUCCESS)
    (toyDec_mem _ 0 h0 hl) ⟨fun _ => rfl, fun _ => rfl⟩ (fun mem hm => by cases hm; decide)
    ⟨fun _ he => (nomatch he), fun _ he => (nomatch he), fun _ he => (nomatch he), fun _ he => (nomatch he), fun _ he => (nomatch he)⟩
    ⟨by decide, by decide⟩ ?_ ?_ ?_ (Or.inr ⟨_, h3⟩) hlk n
  · simpa [heap0] using this
  · refine Or.inr (Or.inr ⟨_, _, _, h3, Or.inr ⟨?_, ?_, ?_, rfl⟩⟩) <;> rw [b64Decode_b64 (by decide +kernel)] <;> exact nofun
  · rintro rc ⟨-, a, b, c, -, hf⟩
    refine hmac_no_fail (name := "HS256") (md := .sha256) rfl ?_ rc hf
    rintro ⟨u, v, e⟩
    have := congrArg List.length e
    rw [show (cString (verKey (toyDec (mkTokB leakJson (str pay1) (List.replicate 32 65))))).length = 6 by decide +kernel] at this
    simp only [List.length_append, show (str "-----BEGIN CERTIFICATE-----").length = 27 by decide +kernel] at this
    omega
  · intro _ a b c h3'
    obtain ⟨rfl, rfl, rfl⟩ := three_unique h3' h3
    exact hmac_defined (name := "HS256") (md := .sha256) rfl (by decide +kernel) (by decide +kernel)

end L8w8jwt
