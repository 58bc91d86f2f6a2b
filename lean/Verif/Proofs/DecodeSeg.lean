import Verif.Proofs.EncodeMain
import Verif.Spec.Decode
import Verif.Spec.Handed
/-!
# Splitting a token and decoding its segments
-/

namespace L8w8jwt
open Spec

variable {s : Sched} {h h' : Heap}

theorem strchr_found (a b : Bytes) (c : UInt8) (ha : c ∉ a) (h0 : (0 : UInt8) ∉ a) : strchr (a ++ c :: b) c = .ok (some a.length) := by
  induction a with
  | nil => simp [strchr]
  | cons x t ih =>
    simp only [List.mem_cons, not_or] at ha h0
    simp only [List.cons_append, strchr]
    rw [if_neg (fun e => ha.1 e.symm), if_neg (fun e => h0.1 e.symm), ih ha.2 h0.2]
    rfl

theorem strchr_none (a b : Bytes) (c : UInt8) (hc : c ≠ 0) (ha : c ∉ a) (h0 : (0 : UInt8) ∉ a) : strchr (a ++ 0 :: b) c = .ok none := by
  induction a with
  | nil => simp [strchr, Ne.symm hc]
  | cons x t ih =>
    simp only [List.mem_cons, not_or] at ha h0
    simp only [List.cons_append, strchr]
    rw [if_neg (fun e => ha.1 e.symm), if_neg (fun e => h0.1 e.symm), ih ha.2 h0.2]
    rfl

/-- The buffer a base64url text is decoded into. -/
def segBuf (text : Bytes) : Bytes :=
  padTo ((text.filter (relevant true)).length / 4 * 3 + 16) ((b64Decode true text).getD [] ++ leftover true text)

theorem groupsRaw_parts {text w d : Bytes} {k : Nat} (hb : ¬ badCount true text) (hg : groupsRaw true (padded true text) = some (w, k))
    (hd : b64Decode true text = some d) : w = d ++ leftover true text ∧ d.length = w.length - k := by
  have h1 : d = w.take (w.length - k) := by
    rw [b64Decode_eq, if_neg hb, hg] at hd
    exact (Option.some.inj hd).symm
  have h2 : w.drop (w.length - k) = leftover true text := groupsRaw_leftover _ _ _ _ hg
  refine ⟨?_, ?_⟩
  · rw [← h2, h1, List.take_append_drop]
  · rw [h1]; simp

/-- All outcomes of decoding one segment. -/
theorem wp_b64dec (mem : Bytes) (n : Nat) (Q : BufOut → Heap → Prop) (E : UB → Prop) (hm : n ≤ mem.length ∨ E .oobRead)
    (hbad : ∀ o h', Keeps h h' → o.out.getD none = none → o.len.getD 0 = 0 →
      (o.rc = L8W8JWT_INVALID_ARG ∧ b64Decode true (mem.take n) = none ∨ o.rc = L8W8JWT_OUT_OF_MEM ∧ ¬ s.noAllocFail) → Q o h')
    (hgood : ∀ d, b64Decode true (mem.take n) = some d → (s.failAlloc h.tick = false) →
      Q { rc := L8W8JWT_SUCCESS, out := some (some ⟨h.tick, segBuf (mem.take n)⟩), len := some d.length }
        { tick := h.tick + 1, live := h.tick :: h.live }) :
    wp (base64Decode true (some mem) n false false) s h Q E := by
  by_cases h0 : n = 0
  · subst h0
    have : base64Decode true (some mem) 0 false false s h = .ok ({ rc := L8W8JWT_INVALID_ARG }, h) := rfl
    refine wp_of_eq this (hbad _ _ (Keeps.refl h) rfl rfl (Or.inl ⟨rfl, ?_⟩))
    simp [b64Decode]
  · by_cases hm' : n ≤ mem.length
    case neg =>
      have : base64Decode true (some mem) n false false s h = .error .oobRead := by
        simp only [base64Decode, Bool.or_self, Bool.false_eq_true, if_false, h0, run_bind, rd]
        rw [List.getElem?_eq_none (by omega)]; rfl
      unfold wp
      rw [this]
      exact hm.resolve_left hm'
    have heq := base64Decode_eq' true mem n s h hm' h0
    by_cases hb : badCount true (mem.take n)
    · rw [if_pos hb] at heq
      refine wp_of_eq heq (hbad _ _ (Keeps.refl h) rfl rfl (Or.inl ⟨rfl, ?_⟩))
      rw [b64Decode_eq, if_pos hb]
    · rw [if_neg hb] at heq
      cases hf : s.failAlloc h.tick with
      | true =>
        rw [hf] at heq
        refine wp_of_eq heq (hbad _ _ (Keeps.tick h) rfl rfl (Or.inr ⟨rfl, fun g => ?_⟩))
        rw [g] at hf; cases hf
      | false =>
        rw [hf, if_neg (by simp)] at heq
        cases hg : groupsRaw true (padded true (mem.take n)) with
        | none =>
          rw [hg] at heq
          refine wp_of_eq heq (hbad _ _ (Keeps.tick h) rfl rfl (Or.inl ⟨rfl, ?_⟩))
          rw [b64Decode_eq, if_neg hb, hg]; rfl
        | some x =>
          obtain ⟨w, k⟩ := x
          rw [hg] at heq
          have hd : b64Decode true (mem.take n) = some (w.take (w.length - k)) := by
            rw [b64Decode_eq, if_neg hb, hg]; rfl
          obtain ⟨e1, e2⟩ := groupsRaw_parts hb hg hd
          have := hgood _ hd hf
          refine wp_of_eq heq ?_
          rw [e2] at this
          simpa only [segBuf, hd, Option.getD_some, ← e1] using this

theorem segBuf_length {text d : Bytes} (hd : b64Decode true text = some d) :
    (segBuf text).length = (text.filter (relevant true)).length / 4 * 3 + 16 ∧
    (d ++ leftover true text).length + 13 ≤ (segBuf text).length := by
  by_cases hb : badCount true text
  · rw [b64Decode_eq, if_pos hb] at hd; cases hd
  · cases hg : groupsRaw true (padded true text) with
    | none => rw [b64Decode_eq, if_neg hb, hg] at hd; cases hd
    | some x =>
      obtain ⟨w, k⟩ := x
      obtain ⟨e1, e2⟩ := groupsRaw_parts hb hg hd
      have h1 := (groupsRaw_bounds true _ _ _ hg).1
      simp only [padded, List.length_append, List.length_replicate] at h1
      simp only [segBuf, hd, Option.getD_some, ← e1, padTo, List.length_append, List.length_replicate]
      omega

/-! ## Ownership -/

/-- The block behind a pointer. -/
def Ptr.ids (p : Ptr) : List Nat :=
  match p with
  | none => []
  | some b => [b.id]

/-- Since `h` the blocks `l` (newest first) have been allocated and are still live; nothing else has changed. -/
structure Owns (h h' : Heap) (l : List Nat) : Prop where
  live : h'.live = l ++ h.live
  desc : l.Pairwise (· > ·)
  fresh : ∀ i ∈ l, h.tick ≤ i ∧ i < h'.tick
  tick : h.tick ≤ h'.tick

theorem Owns.refl (h : Heap) : Owns h h [] := ⟨rfl, List.Pairwise.nil, fun _ h => by simp at h, Nat.le_refl _⟩

theorem Owns.alloc {l : List Nat} (o : Owns h h' l) : Owns h { tick := h'.tick + 1, live := h'.tick :: h'.live } (h'.tick :: l) where
  live := by simp [o.live]
  desc := List.pairwise_cons.mpr ⟨fun i hi => (o.fresh i hi).2, o.desc⟩
  fresh i hi := by
    rcases List.mem_cons.mp hi with rfl | hi
    · exact ⟨o.tick, Nat.lt_succ_self _⟩
    · exact ⟨(o.fresh i hi).1, Nat.lt_succ_of_lt (o.fresh i hi).2⟩
  tick := Nat.le_succ_of_le o.tick

theorem Owns.keeps {h'' : Heap} {l : List Nat} (o : Owns h h' l) (k : Keeps h' h'') : Owns h h'' l where
  live := by rw [k.1, o.live]
  desc := o.desc
  fresh i hi := ⟨(o.fresh i hi).1, Nat.lt_of_lt_of_le (o.fresh i hi).2 k.2⟩
  tick := Nat.le_trans o.tick k.2

theorem Owns.tick1 {l : List Nat} (o : Owns h h' l) : Owns h { h' with tick := h'.tick + 1 } l := o.keeps (Keeps.tick h')

theorem Owns.keep (o : Owns h h' []) : Keeps h h' := ⟨by simpa using o.live, o.tick⟩

theorem Owns.of_keeps (k : Keeps h h') : Owns h h' [] := (Owns.refl h).keeps k

/-- Ownership of what was allocated in two steps. -/
theorem Owns.trans {h'' : Heap} {l k : List Nat} (o : Owns h h' l) (o' : Owns h' h'' k) : Owns h h'' (k ++ l) where
  live := by rw [o'.live, o.live, List.append_assoc]
  desc := List.pairwise_append.mpr ⟨o'.desc, o.desc, fun a ha b hb => Nat.lt_of_lt_of_le (o.fresh b hb).2 (o'.fresh a ha).1⟩
  fresh i hi := by
    rcases List.mem_append.mp hi with hi | hi
    · exact ⟨Nat.le_trans o.tick (o'.fresh i hi).1, (o'.fresh i hi).2⟩
    · exact ⟨(o.fresh i hi).1, Nat.lt_of_lt_of_le (o.fresh i hi).2 o'.tick⟩
  tick := Nat.le_trans o.tick o'.tick

theorem Owns.free {l k : List Nat} {i : Nat} (o : Owns h h' (l ++ i :: k)) :
    i ∈ h'.live ∧ Owns h { h' with live := h'.live.erase i } (l ++ k) := by
  have hp := List.pairwise_append.mp o.desc
  have hni : i ∉ l := fun hi => Nat.lt_irrefl _ (hp.2.2 i hi i (by simp))
  refine ⟨by simp [o.live], ⟨?_, ?_, fun j hj => o.fresh j ?_, o.tick⟩⟩
  · simp only [o.live, List.append_assoc]
    rw [List.erase_append_right _ hni]
    simp
  · exact List.pairwise_append.mpr ⟨hp.1, (List.pairwise_cons.mp hp.2.1).2, fun a ha b hb => hp.2.2 a ha b (by simp [hb])⟩
  · rcases List.mem_append.mp hj with hj | hj <;> simp [hj]

theorem wp_freePtr {l k : List Nat} (p : Ptr) (Q : Unit → Heap → Prop) (E : UB → Prop) (o : Owns h h' (l ++ p.ids ++ k))
    (hQ : ∀ h'', h''.tick = h'.tick → Owns h h'' (l ++ k) → Q () h'') : wp (free p) s h' Q E := by
  cases p with
  | none => exact hQ _ rfl (by simpa [Ptr.ids] using o)
  | some b =>
    have o' : Owns h h' (l ++ b.id :: k) := by simpa [Ptr.ids] using o
    exact wp_free_some _ _ _ o'.free.1 (hQ _ rfl o'.free.2)

/-! ## The segments of a token -/

/-- A buffer with the decoded octets of `text`. -/
def Seg (p : Ptr) (len : Nat) (text : Bytes) : Prop :=
  ∃ id d, p = some ⟨id, segBuf text⟩ ∧ b64Decode true text = some d ∧ len = d.length

/-- Nothing, or such a buffer. -/
def Seg? (p : Ptr) (len : Nat) (text : Bytes) : Prop := (p = none ∧ len = 0) ∨ Seg p len text

theorem relevant_nul : relevant true 0 = false := by decide

theorem filter_nul (t : Bytes) : (t ++ [0]).filter (relevant true) = t.filter (relevant true) := by simp [relevant_nul]

theorem b64Decode_nul (t : Bytes) : b64Decode true (t ++ [0]) = b64Decode true t := by
  simp only [b64Decode, filter_nul]

theorem segBuf_nul (t : Bytes) : segBuf (t ++ [0]) = segBuf t := by
  simp only [segBuf, filter_nul, b64Decode_nul, leftover]

/-- Nothing, or a buffer that starts with the octets and their number. -/
def SegIs (p : Ptr) (len : Nat) : Option Bytes → Prop
  | none => p = none ∧ len = 0
  | some d => ∃ id mem, p = some ⟨id, mem⟩ ∧ len = d.length ∧ mem.take d.length = d

/-- Nothing, or that. -/
def SegMay (p : Ptr) (len : Nat) (x : Option Bytes) : Prop := (p = none ∧ len = 0) ∨ SegIs p len x

/-- The segments are those before the first problem, or fewer if memory is short. -/
def SegsHanded (s : Sched) (alg : Int) (tok : Bytes) (r : Segs) : Prop :=
  ∃ x y z, HandsOut alg tok x y z ∧
    (SegMay r.header r.headerLength x ∧ SegMay r.payload r.payloadLength y ∧ SegMay r.signature r.signatureLength z) ∧
    (s.noAllocFail → SegIs r.header r.headerLength x ∧ SegIs r.payload r.payloadLength y ∧ SegIs r.signature r.signatureLength z)

theorem Seg.is {p : Ptr} {len : Nat} {text : Bytes} (hs : Seg p len text) : SegIs p len (b64Decode true text) := by
  obtain ⟨id, d, rfl, hd, rfl⟩ := hs
  rw [hd]
  exact ⟨id, segBuf text, rfl, rfl, by simp [segBuf, hd, padTo]⟩

theorem segIs_null : SegIs none 0 none := ⟨rfl, rfl⟩

theorem segMay_null {x : Option Bytes} : SegMay none 0 x := Or.inl ⟨rfl, rfl⟩

theorem decodedIf_pos {c : Prop} [Decidable c] (h : c) (t : Bytes) : decodedIf c t = b64Decode true t := if_pos h

theorem decodedIf_neg {c : Prop} [Decidable c] (h : ¬ c) (t : Bytes) : decodedIf c t = none := if_neg h

/-- No buffer because of the text or of memory. -/
theorem segIs_bad {rc : Nat} {t : Bytes}
    (h : rc = L8W8JWT_INVALID_ARG ∧ b64Decode true t = none ∨ rc = L8W8JWT_OUT_OF_MEM ∧ ¬ s.noAllocFail) (g : s.noAllocFail) :
    b64Decode true t = none := by
  rcases h with h | h
  · exact h.2
  · exact absurd g h.2

/-- The outcome of splitting and decoding a token. -/
structure SegPost (s : Sched) (h : Heap) (alg : Int) (tok : Bytes) (r : Segs) (h' : Heap) : Prop where
  owns : Owns h h' (r.signature.ids ++ (r.payload.ids ++ r.header.ids))
  code : SegCode alg tok r.rc ∨ (r.rc = L8W8JWT_OUT_OF_MEM ∧ ¬ s.noAllocFail)
  parts : (46 ∉ tok ∧ r = { rc := r.rc }) ∨
    (∃ a b, TwoParts tok a b ∧ Seg? r.header r.headerLength a ∧ Seg? r.payload r.payloadLength b ∧ r.signature = none ∧
      r.signatureLength = 0 ∧ (r.rc = L8W8JWT_SUCCESS → alg = -1 ∧ Seg r.header r.headerLength a ∧ Seg r.payload r.payloadLength b)) ∨
    (∃ a b c, ThreeParts tok a b c ∧ Seg? r.header r.headerLength a ∧ Seg? r.payload r.payloadLength b ∧
      Seg? r.signature r.signatureLength c ∧
      (r.rc = L8W8JWT_SUCCESS → Seg r.header r.headerLength a ∧ Seg r.payload r.payloadLength b ∧
        Seg r.signature r.signatureLength c))
  handed : SegsHanded s alg tok r

theorem take_len (a b : Bytes) : (a ++ b).take a.length = a := by simp
theorem drop_len (a b : Bytes) (c : UInt8) : (a ++ c :: b).drop (a.length + 1) = b := by
  rw [show a ++ c :: b = (a ++ [c]) ++ b by simp, show a.length + 1 = (a ++ [c]).length by simp, List.drop_left]

theorem ptrDiff_le (a b : Nat) (h : b ≤ a) (ha : a < 2 ^ 64) : ptrDiff a b = a - b := by
  unfold ptrDiff
  omega

/-- The rest of the token, possibly with its terminator. -/
theorem rest_nul (tok pre c junk : Bytes) (n : Nat) (ht : tok = pre ++ c) (hn : n = tok.length ∨ n = tok.length + 1)
    (hl : tok.length < 2 ^ 63) :
    ptrDiff n pre.length ≤ (c ++ 0 :: junk).length ∧
    ((c ++ 0 :: junk).take (ptrDiff n pre.length) = c ∨ (c ++ 0 :: junk).take (ptrDiff n pre.length) = c ++ [0]) := by
  subst ht
  simp only [List.length_append] at hn hl
  rw [ptrDiff_le _ _ (by omega) (by omega)]
  rcases hn with rfl | rfl
  · rw [show pre.length + c.length - pre.length = c.length by omega]
    exact ⟨by simp, Or.inl (by simp)⟩
  · rw [show pre.length + c.length + 1 - pre.length = (c ++ [0]).length by simp; omega, show c ++ 0 :: junk = (c ++ [0]) ++ junk by simp]
    exact ⟨by simp only [List.length_append]; omega, Or.inr (by rw [List.take_left])⟩

/-- Decoding the last segment. -/
theorem wp_b64dec_rest (tok pre c junk : Bytes) (n : Nat) (ht : tok = pre ++ c) (hn : n = tok.length ∨ n = tok.length + 1)
    (hl : tok.length < 2 ^ 63) (Q : BufOut → Heap → Prop) (E : UB → Prop)
    (hbad : ∀ o h', Keeps h h' → o.out.getD none = none → o.len.getD 0 = 0 →
      (o.rc = L8W8JWT_INVALID_ARG ∧ b64Decode true c = none ∨ o.rc = L8W8JWT_OUT_OF_MEM ∧ ¬ s.noAllocFail) → Q o h')
    (hgood : ∀ d, b64Decode true c = some d → (s.failAlloc h.tick = false) →
      Q { rc := L8W8JWT_SUCCESS, out := some (some ⟨h.tick, segBuf c⟩), len := some d.length }
        { tick := h.tick + 1, live := h.tick :: h.live }) :
    wp (base64Decode true (some (c ++ 0 :: junk)) (ptrDiff n pre.length) false false) s h Q E := by
  obtain ⟨h1, h2⟩ := rest_nul tok pre c junk n ht hn hl
  refine wp_b64dec _ _ _ _ (Or.inl h1) (fun o h' k e1 e2 e3 => hbad o h' k e1 e2 ?_) (fun d hd hf => ?_)
  · rcases h2 with h2 | h2 <;> rw [h2] at e3
    · exact e3
    · rwa [b64Decode_nul] at e3
  · rcases h2 with h2 | h2 <;> rw [h2] at hd ⊢
    · exact hgood d hd hf
    · rw [segBuf_nul]; rw [b64Decode_nul] at hd; exact hgood d hd hf

theorem first_dot (tok : Bytes) : 46 ∉ tok ∨ ∃ a b, tok = a ++ 46 :: b ∧ 46 ∉ a := by
  induction tok with
  | nil => simp
  | cons c t ih =>
    by_cases hc : c = 46
    · subst hc; exact Or.inr ⟨[], t, rfl, by simp⟩
    · rcases ih with ih | ⟨a, b, rfl, ha⟩
      · exact Or.inl (by simp [ih, Ne.symm hc])
      · exact Or.inr ⟨c :: a, b, rfl, by simp [ha, Ne.symm hc]⟩

theorem not_segErr {rc : Nat} (h : rc = L8W8JWT_INVALID_ARG ∨ rc = L8W8JWT_OUT_OF_MEM) : rc ≠ L8W8JWT_SUCCESS ∧
    segErr rc ≠ L8W8JWT_SUCCESS := by
  rcases h with rfl | rfl <;> decide

/-- What a failed segment means for the whole. -/
theorem segErr_code {rc : Nat} {t : Bytes} {C : Nat → Prop} (h : rc = L8W8JWT_INVALID_ARG ∧ b64Decode true t = none ∨ rc = L8W8JWT_OUT_OF_MEM ∧ ¬ s.noAllocFail)
    (hc : b64Decode true t = none → C L8W8JWT_BASE64_FAILURE) : C (segErr rc) ∨ (segErr rc = L8W8JWT_OUT_OF_MEM ∧ ¬ s.noAllocFail) := by
  rcases h with ⟨rfl, h⟩ | ⟨rfl, h⟩
  · exact Or.inl (hc h)
  · exact Or.inr ⟨rfl, h⟩

theorem or_of_and {rc : Nat} {A B : Prop} (h : rc = L8W8JWT_INVALID_ARG ∧ A ∨ rc = L8W8JWT_OUT_OF_MEM ∧ B) :
    rc = L8W8JWT_INVALID_ARG ∨ rc = L8W8JWT_OUT_OF_MEM := by
  rcases h with h | h
  · exact Or.inl h.1
  · exact Or.inr h.1

theorem wp_decodeSegments (p : DecParams) (tok : Bytes) (ht : TokenMem p tok) (E : UB → Prop) :
    wp (decodeSegments p) s h (SegPost s h p.alg tok) E := by
  obtain ⟨⟨junk, hj⟩, h0, hn, hl⟩ := ht
  unfold decodeSegments
  rw [wp_bind, wp_lift, hj]
  show wp _ s h _ _
  rw [wp_bind, wp_lift]
  rcases first_dot tok with hd | ⟨a, t, rfl, ha⟩
  · rw [strchr_none _ _ _ (by decide) hd h0]
    exact ⟨by simpa [Ptr.ids] using Owns.refl h, Or.inl (Or.inl ⟨hd, rfl⟩), Or.inl ⟨hd, rfl⟩,
      _, _, _, .one hd, ⟨segMay_null, segMay_null, segMay_null⟩, fun _ => ⟨segIs_null, segIs_null, segIs_null⟩⟩
  have h0a : (0 : UInt8) ∉ a := fun hx => h0 (by simp [hx])
  have h0t : (0 : UInt8) ∉ t := fun hx => h0 (by simp [hx])
  simp only [List.append_assoc, List.cons_append]
  rw [strchr_found _ _ _ ha h0a, rwp_ok]
  show wp _ s h _ _
  have hdrop : (a ++ 46 :: (t ++ 0 :: junk)).drop (a.length + 1) = t ++ 0 :: junk := drop_len _ _ _
  simp only [wp_bind]
  have hbad : ∀ (o : BufOut) h', Keeps h h' → o.out.getD none = none → o.len.getD 0 = 0 →
      (o.rc = L8W8JWT_INVALID_ARG ∧ b64Decode true a = none ∨ o.rc = L8W8JWT_OUT_OF_MEM ∧ ¬ s.noAllocFail) →
      SegPost s h p.alg (a ++ 46 :: t) { rc := segErr o.rc, header := o.out.getD none, headerLength := o.len.getD 0 } h' := by
    intro o h' k e1 e2 e3
    rw [e1, e2]
    have hne := (not_segErr (or_of_and e3)).2
    refine ⟨by simpa [Ptr.ids] using Owns.of_keeps k, segErr_code e3 (fun hx => ?_), Or.inr ?_, ?_⟩
    · rcases first_dot t with ht | ⟨b, c, rfl, hb⟩
      · exact Or.inr (Or.inl ⟨a, t, ⟨rfl, ha, ht⟩, Or.inl ⟨hx, rfl⟩⟩)
      · exact Or.inr (Or.inr ⟨a, b, c, ⟨rfl, ha, hb⟩, Or.inl ⟨Or.inl hx, rfl⟩⟩)
    · rcases first_dot t with ht | ⟨b, c, rfl, hb⟩
      · exact Or.inl ⟨a, t, ⟨rfl, ha, ht⟩, Or.inl ⟨rfl, rfl⟩, Or.inl ⟨rfl, rfl⟩, rfl, rfl, fun h => absurd h hne⟩
      · exact Or.inr ⟨a, b, c, ⟨rfl, ha, hb⟩, Or.inl ⟨rfl, rfl⟩, Or.inl ⟨rfl, rfl⟩, Or.inl ⟨rfl, rfl⟩, fun h => absurd h hne⟩
    · rcases first_dot t with ht | ⟨b, c, rfl, hb⟩
      · refine ⟨_, _, _, .two ⟨rfl, ha, ht⟩, ⟨segMay_null, segMay_null, segMay_null⟩, fun g => ?_⟩
        rw [segIs_bad e3 g, decodedIf_neg (by simp)]
        exact ⟨segIs_null, segIs_null, segIs_null⟩
      · refine ⟨_, _, _, .three ⟨rfl, ha, hb⟩, ⟨segMay_null, segMay_null, segMay_null⟩, fun g => ?_⟩
        rw [segIs_bad e3 g, decodedIf_neg (by simp), decodedIf_neg (by simp)]
        exact ⟨segIs_null, segIs_null, segIs_null⟩
  refine wp_b64dec _ _ _ _ (Or.inl (by simp)) (fun o h' k e1 e2 e3 => ?_) (fun d hd hf => ?_)
  · rw [take_len] at e3
    rw [if_pos (not_segErr (or_of_and e3)).1]
    exact hbad o h' k e1 e2 e3
  rw [take_len] at hd ⊢
  have hA : Seg (some ⟨h.tick, segBuf a⟩) d.length a := ⟨_, _, rfl, hd, rfl⟩
  have oA := (Owns.refl h).alloc
  generalize hh1 : ({ tick := h.tick + 1, live := h.tick :: h.live } : Heap) = h1 at oA
  rw [if_neg (by simp), hdrop]
  simp only [wp_bind, wp_lift, Option.getD_some]
  have hdS : b64Decode true a ≠ none := by rw [hd]; simp
  have hdI : (b64Decode true a).isSome = true := by rw [hd]; rfl
  rcases first_dot t with htd | ⟨b, c, rfl, hb⟩
  · rw [strchr_none _ _ _ (by decide) htd h0t]
    simp only [rwp_ok, Option.isNone_none, true_and]
    by_cases halg : p.alg ≠ -1
    · rw [if_pos halg]
      refine ⟨by simpa [Ptr.ids] using oA, Or.inl (Or.inr (Or.inl ⟨a, t, ⟨rfl, ha, htd⟩, Or.inr (Or.inl ⟨hdS, halg, rfl⟩)⟩)), Or.inr (Or.inl ?_), ?_⟩
      · exact ⟨a, t, ⟨rfl, ha, htd⟩, Or.inr hA, Or.inl ⟨rfl, rfl⟩, rfl, rfl, fun h => by cases h⟩
      · refine ⟨_, _, _, .two ⟨rfl, ha, htd⟩, ⟨Or.inr hA.is, segMay_null, segMay_null⟩, fun _ => ?_⟩
        rw [decodedIf_neg (fun hx => halg hx.2)]
        exact ⟨hA.is, segIs_null, segIs_null⟩
    · rw [if_neg halg]
      have halg : p.alg = -1 := by simpa using halg
      simp only [wp_bind]
      have hpre : a ++ 46 :: t = (a ++ [46]) ++ t := by simp
      have hlen : a.length + 1 = (a ++ [46]).length := by simp
      rw [hlen]
      refine wp_b64dec_rest _ _ _ _ _ hpre hn hl _ _ (fun o h' k e1 e2 e3 => ?_) (fun e he hf => ?_)
      · rw [if_pos (not_segErr (or_of_and e3)).1, e1, e2]
        have hne := (not_segErr (or_of_and e3)).2
        refine ⟨by simpa [Ptr.ids] using oA.keeps k, segErr_code e3 (fun hn => ?_), Or.inr (Or.inl ?_), ?_⟩
        · exact Or.inr (Or.inl ⟨a, t, ⟨rfl, ha, htd⟩, Or.inr (Or.inr (Or.inl ⟨hdS, halg, hn, rfl⟩))⟩)
        · exact ⟨a, t, ⟨rfl, ha, htd⟩, Or.inr hA, Or.inl ⟨rfl, rfl⟩, rfl, rfl, fun h => absurd h hne⟩
        · refine ⟨_, _, _, .two ⟨rfl, ha, htd⟩, ⟨Or.inr hA.is, segMay_null, segMay_null⟩, fun g => ?_⟩
          rw [decodedIf_pos ⟨hdI, halg⟩, segIs_bad e3 g]
          exact ⟨hA.is, segIs_null, segIs_null⟩
      · rw [if_neg (by simp)]
        have hB : Seg (some ⟨h1.tick, segBuf t⟩) e.length t := ⟨_, _, rfl, he, rfl⟩
        refine ⟨by simpa [Ptr.ids] using oA.alloc, Or.inl (Or.inr (Or.inl ⟨a, t, ⟨rfl, ha, htd⟩, ?_⟩)), Or.inr (Or.inl ?_), ?_⟩
        · exact Or.inr (Or.inr (Or.inr ⟨hdS, halg, by rw [he]; simp, rfl⟩))
        · exact ⟨a, t, ⟨rfl, ha, htd⟩, Or.inr hA, Or.inr hB, rfl, rfl, fun _ => ⟨halg, hA, hB⟩⟩
        · refine ⟨_, _, _, .two ⟨rfl, ha, htd⟩, ?_⟩
          rw [decodedIf_pos ⟨hdI, halg⟩]
          exact ⟨⟨Or.inr hA.is, Or.inr hB.is, segMay_null⟩, fun _ => ⟨hA.is, hB.is, segIs_null⟩⟩
  · have h0b : (0 : UInt8) ∉ b := fun hx => h0t (by simp [hx])
    simp only [List.append_assoc, List.cons_append]
    rw [strchr_found _ _ _ hb h0b]
    simp only [rwp_ok, Option.isNone_some, Bool.false_eq_true, false_and, if_false, wp_bind]
    refine wp_b64dec _ _ _ _ (Or.inl (by simp)) (fun o h' k e1 e2 e3 => ?_) (fun e he hf => ?_)
    · rw [take_len] at e3
      rw [if_pos (not_segErr (or_of_and e3)).1, e1, e2]
      have hne := (not_segErr (or_of_and e3)).2
      refine ⟨by simpa [Ptr.ids] using oA.keeps k, segErr_code e3 (fun hn => ?_), Or.inr (Or.inr ?_), ?_⟩
      · exact Or.inr (Or.inr ⟨a, b, c, ⟨rfl, ha, hb⟩, Or.inl ⟨Or.inr (Or.inl hn), rfl⟩⟩)
      · exact ⟨a, b, c, ⟨rfl, ha, hb⟩, Or.inr hA, Or.inl ⟨rfl, rfl⟩, Or.inl ⟨rfl, rfl⟩, fun h => absurd h hne⟩
      · refine ⟨_, _, _, .three ⟨rfl, ha, hb⟩, ⟨Or.inr hA.is, segMay_null, segMay_null⟩, fun g => ?_⟩
        have hn := segIs_bad e3 g
        rw [decodedIf_pos hdI, decodedIf_neg (by simp [hn]), hn]
        exact ⟨hA.is, segIs_null, segIs_null⟩
    · rw [take_len] at he ⊢
      rw [if_neg (by simp)]
      have hB : Seg (some ⟨h1.tick, segBuf b⟩) e.length b := ⟨_, _, rfl, he, rfl⟩
      have oB := oA.alloc
      generalize hh2 : ({ tick := h1.tick + 1, live := h1.tick :: h1.live } : Heap) = h2 at oB
      have hbS : b64Decode true b ≠ none := by rw [he]; simp
      have hbI : (b64Decode true b).isSome = true := by rw [he]; rfl
      simp only [wp_bind, Option.getD_some]
      have hpre : a ++ 46 :: (b ++ 46 :: c) = (a ++ [46] ++ b ++ [46]) ++ c := by simp
      have hlen : a.length + 1 + b.length + 1 = (a ++ [46] ++ b ++ [46]).length := by simp; omega
      rw [hlen, show a ++ 46 :: (b ++ 46 :: (c ++ 0 :: junk)) = (a ++ [46] ++ b ++ [46]) ++ (c ++ 0 :: junk) by simp, List.drop_left]
      refine wp_b64dec_rest _ _ _ _ _ hpre hn hl _ _ (fun o h' k e1 e2 e3 => ?_) (fun f hf' hf => ?_)
      · have hne := (not_segErr (or_of_and e3)).2
        rw [if_pos (not_segErr (or_of_and e3)).1, e1, e2]
        refine ⟨by simpa [Ptr.ids] using oB.keeps k, segErr_code e3 (fun hn => ?_), Or.inr (Or.inr ?_), ?_⟩
        · exact Or.inr (Or.inr ⟨a, b, c, ⟨rfl, ha, hb⟩, Or.inl ⟨Or.inr (Or.inr hn), rfl⟩⟩)
        · exact ⟨a, b, c, ⟨rfl, ha, hb⟩, Or.inr hA, Or.inr hB, Or.inl ⟨rfl, rfl⟩, fun h => absurd h hne⟩
        · refine ⟨_, _, _, .three ⟨rfl, ha, hb⟩, ?_⟩
          rw [decodedIf_pos hdI, decodedIf_pos ⟨hdI, hbI⟩]
          refine ⟨⟨Or.inr hA.is, Or.inr hB.is, segMay_null⟩, fun g => ?_⟩
          rw [segIs_bad e3 g]
          exact ⟨hA.is, hB.is, segIs_null⟩
      · rw [if_neg (by simp)]
        have hC : Seg (some ⟨h2.tick, segBuf c⟩) f.length c := ⟨_, _, rfl, hf', rfl⟩
        refine ⟨by simpa [Ptr.ids] using oB.alloc, Or.inl (Or.inr (Or.inr ⟨a, b, c, ⟨rfl, ha, hb⟩, ?_⟩)), Or.inr (Or.inr ?_), ?_⟩
        · exact Or.inr ⟨hdS, hbS, by rw [hf']; simp, rfl⟩
        · exact ⟨a, b, c, ⟨rfl, ha, hb⟩, Or.inr hA, Or.inr hB, Or.inr hC, fun _ => ⟨hA, hB, hC⟩⟩
        · refine ⟨_, _, _, .three ⟨rfl, ha, hb⟩, ?_⟩
          rw [decodedIf_pos hdI, decodedIf_pos ⟨hdI, hbI⟩]
          exact ⟨⟨Or.inr hA.is, Or.inr hB.is, Or.inr hC.is⟩, fun _ => ⟨hA.is, hB.is, hC.is⟩⟩

/-- Ownership for every token, well-formed memory or not. -/
theorem wp_decodeSegments_owns (p : DecParams) : wp (decodeSegments p) s h
    (fun r h' => Owns h h' (r.signature.ids ++ (r.payload.ids ++ r.header.ids))) (fun _ => True) := by
  unfold decodeSegments
  rw [wp_bind, wp_lift]
  refine rwp_true _ _ fun jwt => ?_
  rw [wp_bind, wp_lift]
  refine rwp_true _ _ fun next => ?_
  have o0 := Owns.refl h
  cases next with
  | none => simpa [Ptr.ids] using o0
  | some d1 =>
    simp only [wp_bind]
    refine wp_b64dec _ _ _ _ (Or.inr trivial) (fun o h' k e1 e2 e3 => ?_) (fun d hd hf => ?_)
    · rw [if_pos (not_segErr (or_of_and e3)).1, e1, e2]
      simpa [Ptr.ids] using o0.keeps k
    · rw [if_neg (by simp)]
      have oA := o0.alloc
      generalize ({ tick := h.tick + 1, live := h.tick :: h.live } : Heap) = h1 at oA
      simp only [wp_bind, wp_lift]
      refine rwp_true _ _ fun next => ?_
      by_cases hc : next.isNone ∧ p.alg ≠ -1
      · rw [if_pos hc]; simpa [Ptr.ids] using oA
      · rw [if_neg hc]
        simp only [wp_bind]
        refine wp_b64dec _ _ _ _ (Or.inr trivial) (fun o h' k e1 e2 e3 => ?_) (fun e he hf => ?_)
        · rw [if_pos (not_segErr (or_of_and e3)).1, e1, e2]
          simpa [Ptr.ids] using oA.keeps k
        · rw [if_neg (by simp)]
          have oB := oA.alloc
          generalize ({ tick := h1.tick + 1, live := h1.tick :: h1.live } : Heap) = h2 at oB
          cases next with
          | none => simpa [Ptr.ids] using oB
          | some k =>
            simp only [wp_bind]
            refine wp_b64dec _ _ _ _ (Or.inr trivial) (fun o h' k e1 e2 e3 => ?_) (fun e he hf => ?_)
            · show Owns _ _ _
              rw [e1]
              simpa [Ptr.ids] using oB.keeps k
            · simpa [Ptr.ids] using oB.alloc

end L8w8jwt
