import Verif.Proofs.DecodeSeg
import Verif.Proofs.Jsmn
import Verif.Spec.Validate
/-!
# Parsing claims: ownership, memory safety and the parsed data
-/

namespace L8w8jwt
open Spec

variable {s : Sched} {h h' : Heap} {env : Env}

/-! ## Ownership without order -/

/-- Since `h` the blocks `m` and `leak` have been allocated and are still live; nothing else has changed. -/
def Mem (h h' : Heap) (m leak : List Nat) : Prop := ∃ l, Owns h h' l ∧ l.Perm (m ++ leak)

theorem Mem.refl (h : Heap) : Mem h h [] [] := ⟨[], Owns.refl h, List.Perm.refl _⟩

theorem Mem.of_owns {l : List Nat} (o : Owns h h' l) : Mem h h' l [] := ⟨l, o, by simp⟩

theorem Mem.alloc {m k : List Nat} (o : Mem h h' m k) : Mem h { tick := h'.tick + 1, live := h'.tick :: h'.live } (h'.tick :: m) k := by
  obtain ⟨l, o, p⟩ := o
  exact ⟨_, o.alloc, p.cons _⟩

theorem Mem.keeps {h'' : Heap} {m k : List Nat} (o : Mem h h' m k) (kp : Keeps h' h'') : Mem h h'' m k := by
  obtain ⟨l, o, p⟩ := o
  exact ⟨l, o.keeps kp, p⟩

theorem Mem.perm {m m' k k' : List Nat} (o : Mem h h' m k) (hp : (m ++ k).Perm (m' ++ k')) : Mem h h' m' k' := by
  obtain ⟨l, o, p⟩ := o
  exact ⟨l, o, p.trans hp⟩

theorem Mem.perm1 {m m' k : List Nat} (o : Mem h h' m k) (hp : m.Perm m') : Mem h h' m' k := o.perm (hp.append_right k)

theorem Mem.drop {m d k : List Nat} (o : Mem h h' (m ++ d) k) : Mem h h' m (d ++ k) :=
  o.perm (by rw [List.append_assoc])

theorem Mem.trans {h'' : Heap} {m k m' k' : List Nat} (o : Mem h h' m k) (o' : Mem h' h'' m' k') : Mem h h'' (m ++ m') (k ++ k') := by
  obtain ⟨l, o, p⟩ := o
  obtain ⟨l', o', p'⟩ := o'
  refine ⟨_, o.trans o', ((p'.append p).trans ?_)⟩
  refine List.perm_append_comm.trans ?_
  simp only [List.append_assoc]
  refine List.Perm.append_left m ?_
  rw [← List.append_assoc, ← List.append_assoc]
  exact List.Perm.append_right k' List.perm_append_comm

theorem Mem.free {i : Nat} {m k : List Nat} (o : Mem h h' (i :: m) k) :
    i ∈ h'.live ∧ Mem h { h' with live := h'.live.erase i } m k := by
  obtain ⟨l, o, p⟩ := o
  have hi : i ∈ l := p.mem_iff.mpr (by simp)
  obtain ⟨a, b, rfl⟩ := List.append_of_mem hi
  obtain ⟨h1, h2⟩ := o.free
  refine ⟨h1, a ++ b, h2, ?_⟩
  have : (i :: (a ++ b)).Perm (i :: (m ++ k)) := (List.perm_middle.symm).trans p
  exact this.cons_inv

theorem Mem.keep (o : Mem h h' [] []) : Keeps h h' := by
  obtain ⟨l, o, p⟩ := o
  have : l = [] := List.Perm.eq_nil (by simpa using p)
  subst this
  exact o.keep

theorem wp_freeMem {m k : List Nat} (p : Ptr) (Q : Unit → Heap → Prop) (E : UB → Prop) (o : Mem h h' (p.ids ++ m) k)
    (hQ : ∀ h'', h''.tick = h'.tick → Mem h h'' m k → Q () h'') : wp (free p) s h' Q E := by
  cases p with
  | none => exact hQ _ rfl (by simpa [Ptr.ids] using o)
  | some b =>
    have o' : Mem h h' (b.id :: m) k := by simpa [Ptr.ids] using o
    exact wp_free_some _ _ _ o'.free.1 (hQ _ rfl o'.free.2)

/-- Pushing one element: it is appended, or, if growing may fail, dropped. -/
theorem wp_push1 {α : Type} {cap : Nat} (b : List α) (x : α) (Q : List α → Heap → Prop) (E : UB → Prop)
    (h1 : Q (b ++ [x]) { h with tick := h.tick + 1 }) (h2 : ¬ s.noGrowFail → cap ≤ b.length → Q b { h with tick := h.tick + 1 }) :
    wp (push cap b [x]) s h Q E := by
  unfold wp push
  cases hg : s.failGrow h.tick with
  | none => exact h1
  | some j =>
    have hn : ¬ s.noGrowFail := fun g => by simp [g h.tick] at hg
    simp only
    split
    · cases j with
      | zero => simpa using h2 hn (by omega)
      | succ j => simpa using h1
    · exact h1

/-! ## The data of a claim -/

theorem _root_.L8w8jwt.Spec.Views.append {a b : List Claim} {x y : List DClaim} (h1 : Views a x) (h2 : Views b y) : Views (a ++ b) (x ++ y) := by
  induction h1 with
  | nil => exact h2
  | cons v _ ih => exact .cons v ih

/-- The blocks of a list of claims. -/
def claimIds (l : List Claim) : List Nat := l.flatMap fun c => c.key.ids ++ c.value.ids

theorem claimIds_append (a b : List Claim) : claimIds (a ++ b) = claimIds a ++ claimIds b := by simp [claimIds]

/-- The text between two positions. -/
def slice (json : Bytes) (t : Tok) : Bytes := (at_ json t.start).take (t.end_ - t.start).toNat

/-- The claim made of a key token and a value token. -/
def mkClaim (json : Bytes) (key value : Tok) (type : Int) : DClaim where
  key := unescapeString (slice json key)
  value := if type = L8W8JWT_CLAIM_TYPE_STRING then unescapeString (slice json value) else slice json value
  type := type

theorem unescapeString_length (t : Bytes) : (unescapeString t).length ≤ t.length := by
  fun_induction unescapeString t with
  | case1 => simp
  | case2 => simp
  | case3 => simp only [List.length_cons] at *; omega
  | case4 => simp only [List.length_cons] at *; omega
  | case5 => simp only [List.length_cons] at *; omega

theorem unescapeString_nul (t : Bytes) (h : 0 ∉ t) : 0 ∉ unescapeString t := by
  fun_induction unescapeString t with
  | case1 => simp
  | case2 => exact h
  | case3 d t e he ih =>
    simp only [List.mem_cons, not_or] at h ⊢
    refine ⟨?_, ih h.2.2⟩
    rintro rfl
    unfold unescapeChar at he
    repeat' split at he
    all_goals first | cases he | (exfalso; revert he; decide)
  | case4 d t _ ih =>
    simp only [List.mem_cons, not_or] at h ih ⊢
    exact ⟨h.1, ih h.2⟩
  | case5 c d t _ ih =>
    simp only [List.mem_cons, not_or] at h ih ⊢
    exact ⟨h.1, ih h.2⟩

theorem wrAt_calloc (n : Nat) (b : Bytes) (hb : b.length ≤ n) :
    wrAt (List.replicate (n + 1) 0) 0 (b ++ [0]) = .ok (b ++ 0 :: List.replicate (n - b.length) 0) := by
  unfold wrAt
  rw [if_pos (by simp; omega)]
  simp [List.drop_replicate]

theorem strncpy_take (mem : Bytes) (n : Nat) (hn : n ≤ mem.length) (h0 : 0 ∉ mem.take n) : strncpy mem n = .ok (mem.take n) := by
  induction mem generalizing n with
  | nil => simp at hn; subst hn; rfl
  | cons c t ih =>
    cases n with
    | zero => rfl
    | succ n =>
      simp only [List.take_succ_cons, List.mem_cons, not_or] at h0
      simp only [strncpy]
      rw [if_neg (fun e => h0.1 e.symm), ih n (by simpa using hn) h0.2]
      rfl

theorem strncmp_ok (a b : Bytes) (n : Nat) (ha : n ≤ a.length) (hb : n ≤ b.length) : ∃ r, strncmp a b n = .ok r := by
  induction n generalizing a b with
  | zero => exact ⟨0, by simp [strncmp]⟩
  | succ n ih =>
    cases a with
    | nil => simp at ha
    | cons x a =>
      cases b with
      | nil => simp at hb
      | cons y b =>
        simp only [strncmp]
        split
        · exact ⟨_, rfl⟩
        · split
          · exact ⟨_, rfl⟩
          · exact ih a b (by simpa using ha) (by simpa using hb)

/-- The JSON text: `n` characters that are not NUL at the start of a buffer with some room behind. -/
def JsonMem (json : Bytes) (n : Nat) : Prop := n + 13 ≤ json.length ∧ 0 ∉ json.take n

theorem slice_mem {json : Bytes} {n : Nat} (hj : JsonMem json n) {t : Tok} (ht : TokIn n t) :
    (t.end_ - t.start).toNat ≤ (at_ json t.start).length ∧ 0 ∉ slice json t ∧ (slice json t).length = (t.end_ - t.start).toNat ∧
    ptrDiff t.end_.toNat t.start.toNat % 18446744073709551616 = (t.end_ - t.start).toNat % 18446744073709551616 := by
  obtain ⟨h1, h2⟩ := hj
  obtain ⟨h3, h4, h5, -⟩ := ht
  have hlen : (t.end_ - t.start).toNat ≤ (at_ json t.start).length := by simp [at_]; omega
  refine ⟨hlen, fun hx => h2 ?_, by simp [slice]; omega, ?_⟩
  · have : slice json t = ((json.take n).drop t.start.toNat).take (t.end_ - t.start).toNat := by
      simp only [slice, at_, List.drop_take, List.take_take]
      congr 1
      omega
    rw [this] at hx
    exact List.mem_of_mem_drop (List.mem_of_mem_take hx)
  · unfold ptrDiff
    omega

/-- The text is shorter than the address space. -/
theorem tok_diff {n : Nat} {t : Tok} (ht : TokIn n t) (hn : n < 2 ^ 64) :
    ptrDiff t.end_.toNat t.start.toNat = (t.end_ - t.start).toNat := by
  obtain ⟨h3, h4, h5, -⟩ := ht
  unfold ptrDiff
  omega

theorem wp_unescapeClaim {json : Bytes} {n : Nat} (hj : JsonMem json n) {key value : Tok} (hk : TokIn n key) (hv : TokIn n value)
    (type : Int) (Q : Nat × Option Claim → Heap → Prop) (E : UB → Prop)
    (hbad : ∀ h', Keeps h h' → (¬ ∀ k, s.failAlloc k = false) → Q (L8W8JWT_OUT_OF_MEM, none) h')
    (hgood : ∀ c h', View c (mkClaim json key value type) → Mem h h' (c.key.ids ++ c.value.ids) [] → Q (L8W8JWT_SUCCESS, some c) h') :
    wp (unescapeClaim type (at_ json key.start) (key.end_ - key.start).toNat (at_ json value.start) (value.end_ - value.start).toNat)
      s h Q E := by
  obtain ⟨k1, k2, k3, -⟩ := slice_mem hj hk
  have k4 : 0 ∉ (mkClaim json key value type).key := unescapeString_nul _ k2
  obtain ⟨v1, v2, v3, -⟩ := slice_mem hj hv
  generalize hkl : (key.end_ - key.start).toNat = kl at *
  generalize hvl : (value.end_ - value.start).toNat = vl at *
  unfold unescapeClaim
  rw [wp_bind, wp_alloc]
  have o0 := Owns.refl h
  refine ⟨fun hf => ?_, fun hf => ?_⟩
  · rw [wp_bind, wp_alloc]
    refine ⟨fun hf' => ?_, fun hf' => ?_⟩
    · exact hbad _ ⟨rfl, by simp only; omega⟩ (fun g => by rw [g] at hf; cases hf)
    · have o1 := o0.tick1.alloc
      simp only [wp_bind, wp_free_none]
      refine wp_freePtr (l := []) (k := []) _ _ _ (by simpa [Ptr.ids] using o1) (fun h'' _ o2 => ?_)
      exact hbad _ o2.keep (fun g => by rw [g] at hf; cases hf)
  · have o1 := o0.alloc
    rw [wp_bind, wp_alloc]
    refine ⟨fun hf' => ?_, fun hf' => ?_⟩
    · simp only [wp_bind]
      refine wp_freePtr (l := []) (k := []) _ _ _ (by simpa [Ptr.ids] using o1.tick1) (fun h'' _ o2 => ?_)
      rw [wp_free_none]
      exact hbad _ o2.keep (fun g => by rw [g] at hf'; cases hf')
    · have o2 := o1.alloc
      generalize ({ tick := _, live := _ } : Heap) = h2 at o2
      have hm : Mem h h2 [h.tick, h.tick + 1] [] := (Mem.of_owns o2).perm1 (List.Perm.swap _ _ _)
      have hks : rdN (at_ json key.start) kl = .ok (slice json key) := by
        unfold rdN; rw [if_pos k1]; simp [slice, hkl]
      have hvs : rdN (at_ json value.start) vl = .ok (slice json value) := by
        unfold rdN; rw [if_pos v1]; simp [slice, hvl]
      have hku : (unescapeString (slice json key)).length ≤ kl := by rw [← k3]; exact unescapeString_length _
      have hvu : (unescapeString (slice json value)).length ≤ vl := by rw [← v3]; exact unescapeString_length _
      simp only [wp_bind, wp_lift, hks, rwp_ok, wrAt_calloc _ _ hku]
      by_cases ht : type = L8W8JWT_CLAIM_TYPE_STRING
      · rw [if_pos ht]
        simp only [wp_bind, wp_lift, hvs, rwp_ok, wrAt_calloc _ _ hvu]
        have hval : (mkClaim json key value type).value = unescapeString (slice json value) := if_pos ht
        refine hgood _ _ ⟨⟨_, _, rfl, rfl⟩, ?_, rfl, k4, ?_⟩ hm
        · rw [hval]
          exact ⟨_, _, rfl, rfl⟩
        · rw [hval]
          exact unescapeString_nul _ v2
      · rw [if_neg ht]
        have hcp : strncpy (at_ json value.start) vl = .ok (slice json value) := by
          have := strncpy_take (at_ json value.start) vl v1 (by simpa [slice, hvl] using v2)
          simpa [slice, hvl] using this
        simp only [wp_bind, wp_lift, hcp, rwp_ok, wrAt_calloc _ _ (Nat.le_of_eq v3)]
        have hval : (mkClaim json key value type).value = slice json value := if_neg ht
        refine hgood _ _ ⟨⟨_, _, rfl, rfl⟩, ?_, rfl, k4, ?_⟩ hm
        · rw [hval]
          exact ⟨_, _, rfl, v3.symm⟩
        · rw [hval]
          exact v2

theorem primType_ok (env : Env) {json : Bytes} {n : Nat} (hj : JsonMem json n) {v : Tok} (hv : TokIn n v) :
    ∃ o, primType env json v = .ok o := by
  have hl : ∀ k, k ≤ 13 → k ≤ (at_ json v.start).length := by
    intro k hk
    have := hj.1
    obtain ⟨_, _, _, _⟩ := hv
    simp [at_]; omega
  have h1 := slice_mem hj hv
  obtain ⟨a, ha⟩ := strncmp_ok (at_ json v.start) (str "true" ++ [0]) 4 (hl _ (by omega)) (by decide)
  obtain ⟨b, hb⟩ := strncmp_ok (at_ json v.start) (str "false" ++ [0]) 5 (hl _ (by omega)) (by decide)
  obtain ⟨c, hc⟩ := strncmp_ok (at_ json v.start) (str "null" ++ [0]) 4 (hl _ (by omega)) (by decide)
  have hd : rdN (at_ json v.start) (v.end_ - v.start).toNat = .ok (slice json v) := by
    unfold rdN; rw [if_pos h1.1]; rfl
  suffices hs : rwp (primType env json v) (fun _ => True) (fun _ => False) by
    obtain ⟨o, ho, -⟩ := rwp_iff_exists.mp hs
    exact ⟨o, ho⟩
  unfold primType
  simp only [rwp_bind, ha, hb, hc, hd, rwp_ok]
  have h2 : ∀ (i : Bool), rwp (if i = true then (.ok (some L8W8JWT_CLAIM_TYPE_BOOLEAN) : Res (Option Int)) else do
      let isNull ← (if v.end_ - v.start = 4 then do
          let a ← Except.ok c
          .ok (a = 0 : Bool)
        else .ok false : Res Bool)
      if isNull then .ok (some L8W8JWT_CLAIM_TYPE_NULL)
      else do
        let text ← Except.ok (slice json v)
        if env.checknum text = 1 then .ok (some L8W8JWT_CLAIM_TYPE_INTEGER)
        else if env.checknum text = 2 then .ok (some L8W8JWT_CLAIM_TYPE_NUMBER)
        else .ok none) (fun _ => True) (fun _ => False) := by
    intro i
    cases i
    · simp only [Bool.false_eq_true, if_false, rwp_bind]
      have h3 : ∀ (j : Bool), rwp (if j = true then (.ok (some L8W8JWT_CLAIM_TYPE_NULL) : Res (Option Int)) else do
          let text ← Except.ok (slice json v)
          if env.checknum text = 1 then .ok (some L8W8JWT_CLAIM_TYPE_INTEGER)
          else if env.checknum text = 2 then .ok (some L8W8JWT_CLAIM_TYPE_NUMBER)
          else .ok none) (fun _ => True) (fun _ => False) := by
        intro j
        cases j
        · simp only [Bool.false_eq_true, if_false, rwp_bind, rwp_ok]
          split
          · trivial
          · split <;> trivial
        · trivial
      split
      · exact h3 _
      · exact h3 _
    · trivial
  split
  · simp only [rwp_bind, rwp_ok]
    split
    · exact (rwp_ok _ _ _).mpr (h2 _)
    · exact (rwp_ok _ _ _).mpr (h2 _)
  · exact (rwp_ok _ _ _).mpr (h2 _)

theorem skipNested_ok (env : Env) (cap r : Nat) (e : Int) (l : List Tok) :
    (∃ l', skipNested env cap r e l = .ok l' ∧ l' <:+ l) ∨ (cap ≤ r + 1 ∧ skipNested env cap r e l = .error .oobRead) := by
  induction l with
  | nil =>
    simp only [skipNested, slackSlot]
    by_cases h1 : r < cap
    · rw [if_pos h1]
      by_cases h2 : r + 1 < cap
      · left
        rw [if_pos h2]
        refine ⟨[], ?_, List.suffix_refl _⟩
        simp only [bind, Except.bind]
        split <;> rfl
      · rw [if_neg h2]
        simp only [bind, Except.bind]
        by_cases h3 : (env.garbage r).end_ ≤ e
        · right; rw [if_pos h3]; exact ⟨by omega, rfl⟩
        · left; rw [if_neg h3]; exact ⟨[], rfl, List.suffix_refl _⟩
    · right
      rw [if_neg h1]
      exact ⟨by omega, rfl⟩
  | cons t ts ih =>
    simp only [skipNested]
    split
    · rcases ih with ⟨l', h1, h2⟩ | h1
      · exact Or.inl ⟨l', h1, h2.trans (List.suffix_cons _ _)⟩
      · exact Or.inr h1
    · exact Or.inl ⟨_, rfl, List.suffix_refl _⟩

theorem claimType_ok (env : Env) {json : Bytes} {n : Nat} (hj : JsonMem json n) (cap r : Nat) {v : Tok} (hv : TokIn n v) (rest : List Tok) :
    (∃ o rest', claimType env json cap r v rest = .ok (o, rest') ∧ rest' <:+ rest) ∨
    (cap ≤ r + 1 ∧ claimType env json cap r v rest = .error .oobRead) := by
  have hs := skipNested_ok env cap r v.end_ rest
  unfold claimType
  cases v.type with
  | undefined => exact Or.inl ⟨_, _, rfl, List.suffix_refl _⟩
  | string => exact Or.inl ⟨_, _, rfl, List.suffix_refl _⟩
  | other => exact Or.inl ⟨_, _, rfl, List.suffix_refl _⟩
  | primitive =>
    obtain ⟨o, ho⟩ := primType_ok env hj hv
    rw [ho]
    exact Or.inl ⟨_, _, rfl, List.suffix_refl _⟩
  | object =>
    rcases hs with ⟨l', h1, h2⟩ | ⟨h0, h1⟩
    · rw [h1]; exact Or.inl ⟨_, _, rfl, h2⟩
    · rw [h1]; exact Or.inr ⟨h0, rfl⟩
  | array =>
    rcases hs with ⟨l', h1, h2⟩ | ⟨h0, h1⟩
    · rw [h1]; exact Or.inl ⟨_, _, rfl, h2⟩
    · rw [h1]; exact Or.inr ⟨h0, rfl⟩

/-! ## The loop -/

/-- `claimsLoop` without the heap: return code and data of the claims. -/
def loopPure (env : Env) (json : Bytes) (cap r : Nat) : Nat → List Tok → Res (Nat × List DClaim)
  | 0, _ => .ok (L8W8JWT_SUCCESS, [])
  | _ + 1, [] => .ok (L8W8JWT_SUCCESS, [])
  | _ + 1, [_] => do
    let _ ← slackSlot env cap r
    .ok (L8W8JWT_DECODE_FAILED_INVALID_TOKEN_FORMAT, [])
  | fuel + 1, key :: value :: rest =>
    if key.type ≠ .string then .ok (L8W8JWT_DECODE_FAILED_INVALID_TOKEN_FORMAT, [])
    else do
      let (type, rest) ← claimType env json cap r value rest
      match type with
      | none => .ok (L8W8JWT_DECODE_FAILED_INVALID_TOKEN_FORMAT, [])
      | some type => do
        let (rc, ds) ← loopPure env json cap r fuel rest
        .ok (rc, mkClaim json key value type :: ds)

/-- Growing the claims buffer does not fail, or is not necessary because its initial capacity suffices. -/
def Room (s : Sched) (buf : List Claim) (pure : Res (Nat × List DClaim)) : Prop :=
  s.noGrowFail ∨ ∃ x, pure = .ok x ∧ buf.length + x.2.length ≤ 16

/-- The outcome of parsing claims. `pure`: the outcome without the heap; `leakOk`: what may leak. -/
structure ParsePost (s : Sched) (h : Heap) (buf : List Claim) (pure : Res (Nat × List DClaim)) (leakOk : Prop)
    (r : Nat × List Claim) (h' : Heap) (new : List Claim) (leak : List Nat) (ds : List DClaim) : Prop where
  claims : r.2 = buf ++ new
  mem : Mem h h' (claimIds new) leak
  noLeak : Room s buf pure → leak = [] ∨ leakOk
  views : Views new ds
  data : Room s buf pure → r.1 ≠ L8W8JWT_OUT_OF_MEM → pure = .ok (r.1, ds)
  code : r.1 = L8W8JWT_SUCCESS ∨ r.1 = L8W8JWT_DECODE_FAILED_INVALID_TOKEN_FORMAT ∨
    (r.1 = L8W8JWT_OUT_OF_MEM ∧ ¬ ∀ k, s.failAlloc k = false)
  leaks : s.good → leakOk → leak.length = 1
  full : r.1 ≠ L8W8JWT_OUT_OF_MEM → ∃ fs, pure = .ok (r.1, fs) ∧ ds.Sublist fs

theorem wp_claimsLoop {json : Bytes} {n : Nat} (hj : JsonMem json n) (hn : n < 2 ^ 64) (cap r : Nat) (E : UB → Prop)
    (fuel : Nat) (toks : List Tok) (hE : (∃ x, loopPure env json cap r fuel toks = .ok x) ∨ E .oobRead)
    (ht : ∀ t ∈ toks, TokIn n t) (buf : List Claim) :
    wp (claimsLoop env json cap r fuel toks buf) s h
      (fun x h' => ∃ new leak ds, ParsePost s h buf (loopPure env json cap r fuel toks) False x h' new leak ds) E := by
  induction fuel generalizing toks buf h with
  | zero =>
    refine ⟨[], [], [], by simp, by simpa [claimIds] using Mem.refl h, fun _ => Or.inl rfl, .nil, fun _ _ => rfl, Or.inl rfl, fun _ hf => hf.elim,
      fun _ => ⟨_, rfl, .slnil⟩⟩
  | succ fuel ih =>
    match toks, ht with
    | [], _ =>
      exact ⟨[], [], [], by simp, by simpa [claimIds] using Mem.refl h, fun _ => Or.inl rfl, .nil, fun _ _ => rfl, Or.inl rfl, fun _ hf => hf.elim,
      fun _ => ⟨_, rfl, .slnil⟩⟩
    | [t], _ =>
      simp only [claimsLoop, wp_bind, wp_lift, loopPure, slackSlot] at hE ⊢
      by_cases hr : r < cap
      · rw [if_pos hr]
        exact ⟨[], [], [], by simp, by simpa [claimIds] using Mem.refl h, fun _ => Or.inl rfl, .nil, fun _ _ => rfl, Or.inr (Or.inl rfl), fun _ hf => hf.elim,
          fun _ => ⟨_, rfl, .slnil⟩⟩
      · rw [if_neg hr] at hE ⊢
        exact hE.resolve_left (fun ⟨_, hx⟩ => nomatch hx)
    | key :: value :: rest, ht =>
      have hk := ht key (by simp)
      have hv := ht value (by simp)
      simp only [claimsLoop, loopPure] at hE ⊢
      by_cases hks : key.type ≠ .string
      · rw [if_pos hks, if_pos hks]
        exact ⟨[], [], [], by simp, by simpa [claimIds] using Mem.refl h, fun _ => Or.inl rfl, .nil, fun _ _ => rfl, Or.inr (Or.inl rfl), fun _ hf => hf.elim,
          fun _ => ⟨_, rfl, .slnil⟩⟩
      · rw [if_neg hks] at hE ⊢
        rw [if_neg hks]
        simp only [wp_bind, wp_lift]
        rcases claimType_ok env hj cap r hv rest with ⟨o, rest', he, hsuf⟩ | ⟨hcap, he⟩
        · rw [he] at hE
          rw [he, rwp_ok]
          simp only [bind, Except.bind] at hE ⊢
          cases o with
          | none =>
            exact ⟨[], [], [], by simp, by simpa [claimIds] using Mem.refl h, fun _ => Or.inl rfl, .nil, fun _ _ => rfl, Or.inr (Or.inl rfl), fun _ hf => hf.elim,
          fun _ => ⟨_, rfl, .slnil⟩⟩
          | some type =>
            simp only at hE ⊢
            have hE : (∃ x, loopPure env json cap r fuel rest' = .ok x) ∨ E .oobRead := by
              refine hE.imp (fun hx => ?_) id
              cases hl : loopPure env json cap r fuel rest' with
              | error e => rw [hl] at hx; obtain ⟨_, hx⟩ := hx; cases hx
              | ok x => exact ⟨x, rfl⟩
            show wp (_ >>= _) s h _ _
            rw [wp_bind, tok_diff hk hn, tok_diff hv hn]
            refine wp_unescapeClaim hj hk hv type _ _ (fun h1 k1 hf => ?_) (fun c h1 hc hm => ?_)
            · exact ⟨[], [], [], by simp, by simpa [claimIds] using (Mem.refl h).keeps k1, fun _ => Or.inl rfl, .nil,
                fun _ hx => absurd rfl hx, Or.inr (Or.inr ⟨rfl, hf⟩), fun _ hf => hf.elim, fun hx => absurd rfl hx⟩
            · simp only
              show wp (_ >>= _) s h1 _ _
              rw [wp_bind]
              have hrest : ∀ t ∈ rest', TokIn n t := fun t hx => ht t (by simp [hsuf.subset hx])
              refine wp_push1 _ _ _ _ ?_ (fun hg hfull => ?_)
              · refine wp_mono (ih rest' hE hrest (buf ++ [c])) (fun x h2 hp => ?_) (fun _ he => he)
                obtain ⟨new, leak, ds, hp⟩ := hp
                have hroom : ∀ {P}, P = loopPure env json cap r fuel rest' → Room s buf (do
                    let (rc, ds) ← P
                    .ok (rc, mkClaim json key value type :: ds)) → Room s (buf ++ [c]) P := by
                  rintro P - (g | ⟨x, hx, hl⟩)
                  · exact Or.inl g
                  · cases P with
                    | error e => cases hx
                    | ok y =>
                      simp only [bind, Except.bind, Except.ok.injEq] at hx
                      subst hx
                      exact Or.inr ⟨y, rfl, by simp at hl ⊢; omega⟩
                refine ⟨c :: new, leak, mkClaim json key value type :: ds, by simp [hp.claims], ?_, fun g => hp.noLeak (hroom rfl g),
                  .cons hc hp.views, fun g hx => by rw [hp.data (hroom rfl g) hx], hp.code, fun _ hf => hf.elim, fun hx => ?_⟩
                · have := (hm.keeps (Keeps.tick h1)).trans hp.mem
                  simpa [claimIds] using this
                · obtain ⟨fs, e, hs⟩ := hp.full hx
                  exact ⟨_, by rw [e], hs.cons_cons _⟩
              · refine wp_mono (ih rest' hE hrest buf) (fun x h2 hp => ?_) (fun _ he => he)
                obtain ⟨new, leak, ds, hp⟩ := hp
                have hroom : ∀ {P}, P = loopPure env json cap r fuel rest' → ¬ Room s buf (do
                    let (rc, ds) ← P
                    .ok (rc, mkClaim json key value type :: ds)) := by
                  rintro P - (g | ⟨x, hx, hl⟩)
                  · exact hg g
                  · cases P with
                    | error e => cases hx
                    | ok y =>
                      simp only [bind, Except.bind, Except.ok.injEq] at hx
                      subst hx
                      simp at hl; omega
                refine ⟨new, (c.key.ids ++ c.value.ids) ++ leak, ds, hp.claims, ?_, fun g => absurd g (hroom rfl), hp.views,
                  fun g => absurd g (hroom rfl), hp.code, fun _ hf => hf.elim, fun hx => ?_⟩
                · have := (hm.keeps (Keeps.tick h1)).trans hp.mem
                  refine this.perm ?_
                  simp only [List.nil_append]
                  rw [← List.append_assoc (claimIds new)]
                  exact List.perm_append_comm.append_right _
                · obtain ⟨fs, e, hs⟩ := hp.full hx
                  exact ⟨_, by rw [e], hs.cons _⟩
        · rw [he] at hE ⊢
          exact hE.resolve_left (fun ⟨_, hx⟩ => nomatch hx)

theorem loopPure_defined {json : Bytes} {n : Nat} (hj : JsonMem json n) (cap r : Nat) (hr : r + 1 < cap) (fuel : Nat) (toks : List Tok)
    (ht : ∀ t ∈ toks, TokIn n t) : ∃ x, loopPure env json cap r fuel toks = .ok x := by
  induction fuel generalizing toks with
  | zero => exact ⟨_, rfl⟩
  | succ fuel ih =>
    match toks, ht with
    | [], _ => exact ⟨_, rfl⟩
    | [t], _ => exact ⟨_, by simp only [loopPure, slackSlot, if_pos (show r < cap by omega)]; rfl⟩
    | key :: value :: rest, ht =>
      simp only [loopPure]
      by_cases hks : key.type ≠ .string
      · rw [if_pos hks]; exact ⟨_, rfl⟩
      · rw [if_neg hks]
        rcases claimType_ok env hj cap r (ht value (by simp)) rest with ⟨o, rest', he, hsuf⟩ | ⟨hcap, he⟩
        · rw [he]
          cases o with
          | none => exact ⟨_, rfl⟩
          | some type =>
            obtain ⟨x, hx⟩ := ih rest' (fun t hx => ht t (by simp [hsuf.subset hx]))
            simp only [bind, Except.bind, hx]
            exact ⟨_, rfl⟩
        · omega

/-! ## The whole parser -/

/-- `parseClaims` without the heap. -/
def parsePure (env : Env) (json : Bytes) (len : Nat) : Res (Nat × List DClaim) :=
  match jsmnCount (json.take len) with
  | .error _ => .ok (L8W8JWT_DECODE_FAILED_INVALID_TOKEN_FORMAT, [])
  | .ok 0 => .ok (L8W8JWT_SUCCESS, [])
  | .ok (n + 1) =>
    match jsmnParse (json.take len) (n + 1) with
    | .error _ => .ok (L8W8JWT_DECODE_FAILED_INVALID_TOKEN_FORMAT, [])
    | .ok (r, toks) =>
      match toks with
      | [] => .error .oobRead
      | t0 :: ts =>
        if t0.type ≠ .object then .ok (L8W8JWT_DECODE_FAILED_INVALID_TOKEN_FORMAT, [])
        else loopPure env json (if n + 1 ≤ 64 then 64 else n + 1) r r ts

/-- The text has so few tokens that the token array has two slots to spare. -/
def FewTokens (text : Bytes) : Prop := ∀ n, jsmnCount text = .ok n → n ≤ 62

/-- The text has more than 64 tokens and is rejected by the second pass. -/
def LeaksTokens (text : Bytes) : Prop := ∃ n e, jsmnCount text = .ok n ∧ 64 < n ∧ jsmnParse text n = .error e

theorem cString_length_take (l : Bytes) : 0 ∉ l.take (cString l).length := by
  rw [take_cString]
  intro hx
  have := List.all_takeWhile (p := (· != (0 : UInt8))) (l := l)
  rw [List.all_eq_true] at this
  have := this 0 hx
  simp at this

theorem jsonMem_of {json : Bytes} {len : Nat} (h1 : len + 13 ≤ json.length) : JsonMem json (cString (json.take len)).length := by
  have h2 := cString_length_le (json.take len)
  have h3 : (json.take len).length = len := by simp; omega
  refine ⟨by omega, ?_⟩
  have := cString_length_take (json.take len)
  rwa [List.take_take, Nat.min_eq_left (by omega)] at this

theorem wp_parseWithTokens {json : Bytes} {len : Nat} (h1 : len + 13 ≤ json.length) (hlen : len < 2 ^ 64) (buf : List Claim)
    (n : Nat) (hc : jsmnCount (json.take len) = .ok (n + 1)) (tokens : Ptr) (ht : (tokens.ids = [] ∧ n + 1 ≤ 64) ∨ (tokens.ids.length = 1 ∧ 64 < n + 1)) (E : UB → Prop)
    (hE : (∃ x, parsePure env json len = .ok x) ∨ E .oobRead) {h0 : Heap} (o : Mem h0 h tokens.ids []) :
    wp (parseWithTokens env buf json (json.take len) (n + 1) tokens) s h
      (fun x h' => ∃ new leak ds, ParsePost s h0 buf (parsePure env json len) (LeaksTokens (json.take len)) x h' new leak ds) E := by
  have hj := jsonMem_of h1
  have hl : (cString (json.take len)).length < 2 ^ 64 := by
    have := cString_length_le (json.take len)
    have : (json.take len).length ≤ len := by simp; omega
    omega
  unfold parseWithTokens
  unfold parsePure at hE ⊢
  simp only [hc] at hE ⊢
  generalize hp : jsmnParse (json.take len) (n + 1) = x at hE ⊢
  cases x with
  | error e =>
    simp only
    refine ⟨[], tokens.ids, [], by simp, by simpa [claimIds] using o.perm (by simp), fun _ => ?_, .nil, fun _ _ => rfl, Or.inr (Or.inl rfl), ?_,
      fun _ => ⟨_, rfl, .slnil⟩⟩
    · rcases ht with ht | ht
      · exact Or.inl ht.1
      · exact Or.inr ⟨n + 1, e, hc, ht.2, hp⟩
    · rintro - ⟨n', e', hc', hn', -⟩
      rw [hc] at hc'
      cases hc'
      rcases ht with ht | ht
      · omega
      · exact ht.1
  | ok x =>
    obtain ⟨r, toks⟩ := x
    have hr := jsmn_counts hc hp
    obtain ⟨hr2, hin⟩ := jsmnParse_inv hp
    have hno : ¬ LeaksTokens (json.take len) := by
      rintro ⟨n', e', hc', -, hp'⟩
      rw [hc] at hc'
      cases hc'
      rw [hp] at hp'
      cases hp'
    match toks, hr2, hin with
    | [], hr2, _ => simp at hr2; omega
    | t0 :: ts, hr2, hin =>
      simp only at hE ⊢
      by_cases ht0 : t0.type ≠ .object
      · rw [if_pos ht0, if_pos ht0, wp_bind]
        refine wp_freeMem (m := []) (k := []) _ _ _ (by simpa using o) (fun h1 _ o1 => ?_)
        exact ⟨[], [], [], by simp, by simpa [claimIds] using o1, fun _ => Or.inl rfl, .nil, fun _ _ => rfl, Or.inr (Or.inl rfl),
          fun _ hf => absurd hf hno, fun _ => ⟨_, rfl, .slnil⟩⟩
      · rw [if_neg ht0] at hE ⊢
        rw [if_neg ht0]
        simp only [wp_bind]
        refine wp_mono (wp_claimsLoop hj hl _ r E r ts hE (fun t hx => hin t (by simp [hx])) buf) (fun x h2 hpst => ?_) (fun _ he => he)
        obtain ⟨new, leak, ds, hpst⟩ := hpst
        have om := o.trans hpst.mem
        refine wp_freeMem (m := claimIds new) (k := leak) _ _ _ (by simpa using om) (fun h3 _ o3 => ?_)
        exact ⟨new, leak, ds, hpst.claims, o3, fun g => Or.inl ((hpst.noLeak g).resolve_right id), hpst.views, hpst.data, hpst.code,
          fun _ hf => absurd hf hno, hpst.full⟩

/-- Parsing the claims of a buffer with `len` characters of text. -/
theorem wp_parseClaims {id : Nat} {json : Bytes} {len : Nat} (h1 : len + 13 ≤ json.length) (hlen : len < 2 ^ 64) (buf : List Claim)
    (E : UB → Prop) (hE : (∃ x, parsePure env json len = .ok x) ∨ E .oobRead) :
    wp (parseClaims env buf (some ⟨id, json⟩) len) s h
      (fun x h' => ∃ new leak ds, ParsePost s h buf (parsePure env json len) (LeaksTokens (json.take len)) x h' new leak ds) E := by
  unfold parseClaims
  simp only [wp_bind, wp_lift, Ptr.bytes, Option.map_some, deref, rwp_ok, rdN]
  rw [if_pos (by omega), rwp_ok]
  generalize hc : jsmnCount (json.take len) = c
  have hnil : ∀ rc, ¬ LeaksTokens (json.take len) → (rc = L8W8JWT_SUCCESS ∨ rc = L8W8JWT_DECODE_FAILED_INVALID_TOKEN_FORMAT) → parsePure env json len = .ok (rc, []) →
      ∃ new leak ds, ParsePost s h buf (parsePure env json len) (LeaksTokens (json.take len)) (rc, buf) h new leak ds := by
    intro rc hno hrc he
    refine ⟨[], [], [], by simp, by simpa [claimIds] using Mem.refl h, fun _ => Or.inl rfl, .nil, fun _ _ => he, ?_, fun _ hf => absurd hf hno,
      fun _ => ⟨_, he, .slnil⟩⟩
    rcases hrc with h | h
    · exact Or.inl h
    · exact Or.inr (Or.inl h)
  match c, hc with
  | .error e, hc => exact hnil _ (by rintro ⟨n, e, hc', -⟩; rw [hc] at hc'; cases hc') (Or.inr rfl) (by unfold parsePure; simp only [hc])
  | .ok 0, hc => exact hnil _ (by rintro ⟨n, e, hc', hn, -⟩; rw [hc] at hc'; cases hc'; omega) (Or.inl rfl) (by unfold parsePure; simp only [hc])
  | .ok (n + 1), hc =>
    simp only
    by_cases hn : n + 1 ≤ 64
    · rw [if_pos hn]
      exact wp_parseWithTokens h1 hlen buf n hc none (Or.inl ⟨rfl, hn⟩) E hE (Mem.refl h)
    · rw [if_neg hn, wp_bind, wp_alloc]
      refine ⟨fun hf => ?_, fun hf => ?_⟩
      · exact ⟨[], [], [], by simp, by simpa [claimIds] using (Mem.refl h).keeps (Keeps.tick h), fun _ => Or.inl rfl, .nil,
          fun _ hx => absurd rfl hx, Or.inr (Or.inr ⟨rfl, fun g => by rw [g] at hf; cases hf⟩),
          (fun g => by rw [g.1] at hf; cases hf), fun hx => absurd rfl hx⟩
      · exact wp_parseWithTokens h1 hlen buf n hc _ (Or.inr ⟨rfl, by omega⟩) E hE (by simpa [Ptr.ids] using (Mem.refl h).alloc)

theorem parsePure_few {json : Bytes} {len : Nat} (h1 : len + 13 ≤ json.length) (hf : FewTokens (json.take len)) :
    ∃ x, parsePure env json len = .ok x := by
  have hj := jsonMem_of h1
  unfold parsePure
  generalize hc : jsmnCount (json.take len) = c
  match c, hc with
  | .error e, hc => exact ⟨_, rfl⟩
  | .ok 0, hc => exact ⟨_, rfl⟩
  | .ok (n + 1), hc =>
    have hn := hf _ hc
    simp only
    generalize hp : jsmnParse (json.take len) (n + 1) = x
    cases x with
    | error e => exact ⟨_, rfl⟩
    | ok x =>
      obtain ⟨r, toks⟩ := x
      have hr := jsmn_counts hc hp
      obtain ⟨hr2, hin⟩ := jsmnParse_inv hp
      match toks, hr2, hin with
      | [], hr2, _ => simp at hr2; omega
      | t0 :: ts, hr2, hin =>
        simp only
        split
        · exact ⟨_, rfl⟩
        · rw [if_pos (by omega)]
          exact loopPure_defined hj _ _ (by omega) _ _ (fun t hx => hin t (by simp [hx]))

end L8w8jwt
