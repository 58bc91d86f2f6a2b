import Verif.Proofs.Base64Enc
import Verif.Proofs.Base64Dec
/-!
# C01-C07: base64
-/

namespace L8w8jwt
open Spec

/-- Every successful run of the encoder on `n` bytes (`n` any `size_t`) is the run described by the specification. -/
theorem base64Encode_success (url : Bool) (mem : Bytes) (n : Nat) (s : Sched) (h h' : Heap) (o : BufOut)
    (hn : n < 2 ^ 64) (hrun : base64Encode url (some mem) n false false s h = .ok (o, h'))
    (hrc : o.rc = L8W8JWT_SUCCESS) :
    n ≤ mem.length ∧ n ≠ 0 ∧ n < 2 ^ 62 ∧ (url = true → 4 * ((n + 2) / 3) ≤ intMax) ∧ s.failAlloc h.tick = false := by
  by_cases h0 : n = 0
  · subst h0; rw [base64Encode] at hrun
    simp only [Bool.or_self, Bool.false_eq_true, if_false, if_true, run_pure, Except.ok.injEq, Prod.mk.injEq] at hrun
    rw [← hrun.1] at hrc; exact absurd hrc (by decide)
  · by_cases hb : 2 ^ 62 ≤ n
    · rw [base64Encode_toolarge url mem n s h hb hn] at hrun
      simp only [Except.ok.injEq, Prod.mk.injEq] at hrun
      rw [← hrun.1] at hrc; exact absurd hrc (by decide)
    · have hb' : n < 2 ^ 62 := by omega
      by_cases hm : n ≤ mem.length
      · by_cases hu : url = true → 4 * ((n + 2) / 3) ≤ intMax
        · refine ⟨hm, h0, hb', hu, ?_⟩
          rw [base64Encode_eq url mem n s h hm h0 hb' hu] at hrun
          cases hf : s.failAlloc h.tick with
          | false => rfl
          | true =>
            simp only [hf, if_true, Except.ok.injEq, Prod.mk.injEq] at hrun
            rw [← hrun.1] at hrc; exact absurd hrc (by decide)
        · simp only [Classical.not_imp] at hu
          obtain ⟨rfl, hu⟩ := hu
          rw [base64Encode_overflow mem n s h hm hb' (by omega)] at hrun
          split at hrun
          · simp only [Except.ok.injEq, Prod.mk.injEq] at hrun
            rw [← hrun.1] at hrc; exact absurd hrc (by decide)
          · cases hrun
      · rw [base64Encode_short url mem n s h (by omega) hb'] at hrun
        split at hrun
        · simp only [Except.ok.injEq, Prod.mk.injEq] at hrun
          rw [← hrun.1] at hrc; exact absurd hrc (by decide)
        · cases hrun

/-- **C02** Conformance: whenever the encoder succeeds, the buffer is the RFC 4648 text followed by NUL, and `out_length`
is the length of the text. -/
theorem C02_base64_rfc4648 (url : Bool) (mem : Bytes) (n : Nat) (s : Sched) (h h' : Heap) (o : BufOut)
    (hn : n < 2 ^ 64) (hrun : base64Encode url (some mem) n false false s h = .ok (o, h'))
    (hrc : o.rc = L8W8JWT_SUCCESS) :
    ∃ blk, o.out = some (some blk) ∧ o.len = some (b64Text url (mem.take n)).length ∧
      blk.mem.take (b64Text url (mem.take n)).length = b64Text url (mem.take n) ∧
      blk.mem[(b64Text url (mem.take n)).length]? = some 0 := by
  obtain ⟨hm, h0, hb, hu, hf⟩ := base64Encode_success url mem n s h h' o hn hrun hrc
  rw [base64Encode_eq url mem n s h hm h0 hb hu] at hrun
  simp only [hf, Bool.false_eq_true, if_false, Except.ok.injEq, Prod.mk.injEq] at hrun
  obtain ⟨rfl, rfl⟩ := hrun
  refine ⟨_, rfl, rfl, ?_, ?_⟩
  · simp [encMem]
  · simp only [encMem]
    rw [List.getElem?_append_right (by omega)]
    cases url <;> simp

/-- **C02** Definedness: with enough memory the encoder succeeds on every non-empty input up to the size limits (url
mode: the `int line_length` of src/base64.c:143 limits the text to `INT_MAX` characters). -/
theorem C02_base64_defined (url : Bool) (mem : Bytes) (n : Nat) (s : Sched) (h : Heap) (hm : n ≤ mem.length)
    (h0 : n ≠ 0) (hn : n < 2 ^ 62) (hu : url = true → 4 * ((n + 2) / 3) ≤ 2147483647)
    (hf : s.failAlloc h.tick = false) :
    ∃ o h', base64Encode url (some mem) n false false s h = .ok (o, h') ∧ o.rc = L8W8JWT_SUCCESS := by
  rw [base64Encode_eq url mem n s h hm h0 hn hu]
  simp only [hf, Bool.false_eq_true, if_false]
  exact ⟨_, _, rfl, rfl⟩

/-- Finding: url mode is undefined (signed overflow of `line_length`) beyond that limit. -/
theorem C02_base64_url_overflow (mem : Bytes) (n : Nat) (s : Sched) (h : Heap) (hm : n ≤ mem.length) (hn : n < 2 ^ 62)
    (hu : 2147483647 < 4 * ((n + 2) / 3)) (hf : s.failAlloc h.tick = false) :
    base64Encode true (some mem) n false false s h = .error .signedOverflow := by
  rw [base64Encode_overflow mem n s h hm hn hu]; simp [hf]

example : base64Encode true (some (str "any carnal pleas")) 16 false false calm heap0 =
    .ok ({ rc := 0, out := some (some ⟨0, str "YW55IGNhcm5hbCBwbGVhcw" ++ [0, 0, 0]⟩), len := some 22 }, ⟨1, [0]⟩) := by
  decide +kernel
example : ∃ mem : Bytes, 2000000000 ≤ mem.length ∧ 2147483647 < 4 * ((2000000000 + 2) / 3) :=
  ⟨List.replicate 2000000000 0, by rw [List.length_replicate]; omega, by omega⟩

/-- **C01** Round trip: decoding `out_length` bytes of what the encoder returned gives the data back. -/
theorem C01_base64_roundtrip (url : Bool) (mem : Bytes) (n : Nat) (s s2 : Sched) (h h' h2 : Heap) (o : BufOut)
    (hn : n < 2 ^ 64) (hrun : base64Encode url (some mem) n false false s h = .ok (o, h'))
    (hrc : o.rc = L8W8JWT_SUCCESS) (hf2 : s2.failAlloc h2.tick = false) :
    ∃ blk len, o.out = some (some blk) ∧ o.len = some len ∧
      ∃ d blk2 h2', base64Decode url (some blk.mem) len false false s2 h2 = .ok (d, h2') ∧
        d.rc = L8W8JWT_SUCCESS ∧ d.out = some (some blk2) ∧ d.len = some n ∧ blk2.mem.take n = mem.take n := by
  obtain ⟨hm, h0, hb, hu, hf⟩ := base64Encode_success url mem n s h h' o hn hrun hrc
  rw [base64Encode_eq url mem n s h hm h0 hb hu] at hrun
  simp only [hf, Bool.false_eq_true, if_false, Except.ok.injEq, Prod.mk.injEq] at hrun
  obtain ⟨rfl, rfl⟩ := hrun
  refine ⟨_, _, rfl, rfl, ?_⟩
  have hd : mem.take n ≠ [] := by
    intro he; have := congrArg List.length he; simp [hm] at this; omega
  have hlen0 : (b64Text url (mem.take n)).length ≠ 0 := by
    cases url with
    | false =>
      have := wrap72_length (b64Padded (mem.take n)) 0 (by omega)
      have := b64Padded_length (mem.take n)
      have hl : (mem.take n).length = n := by simp [hm]
      simp only [b64Text, Bool.false_eq_true, if_false]; omega
    | true =>
      have := b64_length true (mem.take n)
      have hl : (mem.take n).length = n := by simp [hm]
      simp only [b64Text, if_true]; omega
  have htake : (encMem url (mem.take n)).take (b64Text url (mem.take n)).length = b64Text url (mem.take n) := by
    simp [encMem]
  rw [base64Decode_eq' url _ _ s2 h2 (by simp [encMem]) hlen0]
  simp only [htake, badCount_text url _ hd, if_false, hf2, Bool.false_eq_true, padded_text, groupsRaw_b64]
  refine ⟨_, _, _, rfl, rfl, rfl, ?_, ?_⟩
  · simp [Nat.min_eq_left hm]
  · show (padTo _ (mem.take n ++ _)).take n = _
    rw [padTo, List.append_assoc, List.take_append_of_le_length (by simp [hm])]
    rw [List.take_take, Nat.min_self]

example : ∃ o h', base64Encode false (some (str "any carnal pleas")) 16 false false calm heap0 = .ok (o, h') ∧
    o.rc = L8W8JWT_SUCCESS := C02_base64_defined false _ 16 calm heap0 (by decide) (by decide) (by omega) (by simp) rfl

/-- **C03** The encoder never writes outside its allocation: `oobWrite` is impossible for every `size_t` length. -/
theorem C03_base64_alloc_bound (url : Bool) (mem : Bytes) (n : Nat) (s : Sched) (h : Heap) (hn : n < 2 ^ 64) :
    base64Encode url (some mem) n false false s h ≠ .error .oobWrite := by
  by_cases h0 : n = 0
  · subst h0; rw [base64Encode]; simp [run_pure]
  · by_cases hb : 2 ^ 62 ≤ n
    · rw [base64Encode_toolarge url mem n s h hb hn]; simp
    · by_cases hm : n ≤ mem.length
      · by_cases hu : url = true → 4 * ((n + 2) / 3) ≤ intMax
        · rw [base64Encode_eq url mem n s h hm h0 (by omega) hu]; split <;> simp
        · simp only [Classical.not_imp] at hu
          obtain ⟨rfl, hu⟩ := hu
          rw [base64Encode_overflow mem n s h hm (by omega) (by omega)]; split <;> simp
      · rw [base64Encode_short url mem n s h (by omega) (by omega)]; split <;> simp

/-- **C03** The bytes written are text, newlines and NUL; the allocation has at least that size. -/
theorem C03_base64_size (url : Bool) (n : Nat) (hn : n < 2 ^ 62) :
    4 * ((n + 2) / 3) + (if url then 0 else (4 * ((n + 2) / 3) + 71) / 72) + 1 ≤ b64OutSize n := outSize_ge n hn url

/-- **C03** `L8W8JWT_OVERFLOW` is reported exactly from a quarter of the `size_t` range on. -/
theorem C03_base64_overflow_iff (url : Bool) (mem : Bytes) (n : Nat) (s : Sched) (h h' : Heap) (o : BufOut)
    (hn : n < 2 ^ 64) (hrun : base64Encode url (some mem) n false false s h = .ok (o, h')) :
    o.rc = L8W8JWT_OVERFLOW ↔ 2 ^ 62 ≤ n := by
  constructor
  · intro hrc
    by_cases hb : 2 ^ 62 ≤ n
    · exact hb
    · exfalso
      by_cases h0 : n = 0
      · subst h0; rw [base64Encode] at hrun
        simp only [Bool.or_self, Bool.false_eq_true, if_false, if_true, run_pure, Except.ok.injEq, Prod.mk.injEq] at hrun
        rw [← hrun.1] at hrc; exact absurd hrc (by decide)
      · by_cases hm : n ≤ mem.length
        · by_cases hu : url = true → 4 * ((n + 2) / 3) ≤ intMax
          · rw [base64Encode_eq url mem n s h hm h0 (by omega) hu] at hrun
            split at hrun <;> (simp only [Except.ok.injEq, Prod.mk.injEq] at hrun; rw [← hrun.1] at hrc; cases hrc)
          · simp only [Classical.not_imp] at hu
            obtain ⟨rfl, hu⟩ := hu
            rw [base64Encode_overflow mem n s h hm (by omega) (by omega)] at hrun
            split at hrun
            · simp only [Except.ok.injEq, Prod.mk.injEq] at hrun; rw [← hrun.1] at hrc; exact absurd hrc (by decide)
            · cases hrun
        · rw [base64Encode_short url mem n s h (by omega) (by omega)] at hrun
          split at hrun
          · simp only [Except.ok.injEq, Prod.mk.injEq] at hrun; rw [← hrun.1] at hrc; exact absurd hrc (by decide)
          · cases hrun
  · intro hb
    rw [base64Encode_toolarge url mem n s h hb hn] at hrun
    simp only [Except.ok.injEq, Prod.mk.injEq] at hrun
    rw [← hrun.1]

/- equality is reached: 55 bytes in standard mode need 76 characters, 2 newlines and the NUL; the allocation is 79 -/
example : b64OutSize 55 = 4 * ((55 + 2) / 3) + (4 * ((55 + 2) / 3) + 71) / 72 + 1 := by decide
example (mem : Bytes) : base64Encode false (some mem) (2 ^ 63 + 5) false false calm heap0 = .ok ({ rc := L8W8JWT_OVERFLOW }, heap0) :=
  base64Encode_toolarge _ _ _ _ _ (by omega) (by omega)

/-- **C04** The decoder is defined on every object of at least `n` bytes (so it reads at most the first `n` bytes and
writes only inside its allocation), and the byte after the decoded data is inside the returned buffer. -/
theorem C04_base64_decode_bounds (url : Bool) (mem : Bytes) (n : Nat) (s : Sched) (h : Heap) (hm : n ≤ mem.length) :
    ∃ o h', base64Decode url (some mem) n false false s h = .ok (o, h') ∧
      (o.rc = L8W8JWT_SUCCESS → ∃ blk len, o.out = some (some blk) ∧ o.len = some len ∧ len < blk.mem.length) := by
  by_cases h0 : n = 0
  · subst h0; exact ⟨_, _, rfl, fun hrc => absurd hrc (by decide)⟩
  · rw [base64Decode_eq' url mem n s h hm h0]
    by_cases hb : badCount url (mem.take n)
    · simp only [hb, if_true]; exact ⟨_, _, rfl, fun hrc => absurd hrc (by decide)⟩
    · simp only [hb, if_false]
      cases s.failAlloc h.tick with
      | true => simp only [if_true]; exact ⟨_, _, rfl, fun hrc => absurd hrc (by decide)⟩
      | false =>
        simp only [Bool.false_eq_true, if_false]
        cases hG : groupsRaw url (padded url (mem.take n)) with
        | none => exact ⟨_, _, rfl, fun hrc => absurd hrc (by decide)⟩
        | some x =>
          obtain ⟨w, k⟩ := x
          refine ⟨_, _, rfl, fun _ => ⟨_, _, rfl, rfl, ?_⟩⟩
          have hbd := (groupsRaw_bounds url _ _ _ hG).1
          simp only [padded, List.length_append, List.length_replicate] at hbd
          simp only [padTo, List.length_append, List.length_replicate]
          omega

/-- **C04** Only the first `n` bytes matter. -/
theorem C04_base64_decode_reads_prefix (url : Bool) (mem mem2 : Bytes) (n : Nat) (s : Sched) (h : Heap)
    (hm : n ≤ mem.length) (hm2 : n ≤ mem2.length) (he : mem.take n = mem2.take n) :
    base64Decode url (some mem) n false false s h = base64Decode url (some mem2) n false false s h := by
  by_cases h0 : n = 0
  · subst h0; rfl
  · rw [base64Decode_eq' url mem n s h hm h0, base64Decode_eq' url mem2 n s h hm2 h0, he]

example : runs (base64Decode false (some (str "QUI=")) 4 false false) (fun o => o.rc = L8W8JWT_SUCCESS) := by
  decide +kernel

/-- **C05** The decoder implements the specification: it succeeds exactly on the texts the specification accepts and
returns exactly those bytes; otherwise the code is `L8W8JWT_INVALID_ARG` (no memory: `L8W8JWT_OUT_OF_MEM`). -/
theorem C05_base64_decode_exact (url : Bool) (mem : Bytes) (n : Nat) (s : Sched) (h : Heap) (hm : n ≤ mem.length)
    (hf : s.failAlloc h.tick = false) :
    ∃ o h', base64Decode url (some mem) n false false s h = .ok (o, h') ∧
      (match b64Decode url (mem.take n) with
       | none => o.rc = L8W8JWT_INVALID_ARG ∧ o.len = none ∧ h'.live = h.live
       | some d => o.rc = L8W8JWT_SUCCESS ∧ o.len = some d.length ∧
           ∃ blk, o.out = some (some blk) ∧ blk.mem.take d.length = d ∧ h'.live = blk.id :: h.live) := by
  by_cases h0 : n = 0
  · subst h0
    have : b64Decode url (mem.take 0) = none := by simp [b64Decode]
    rw [this]
    exact ⟨_, _, rfl, rfl, rfl, rfl⟩
  · rw [base64Decode_eq' url mem n s h hm h0, b64Decode_eq]
    by_cases hb : badCount url (mem.take n)
    · simp only [hb, if_true]; exact ⟨_, _, rfl, rfl, rfl, rfl⟩
    · simp only [hb, if_false, hf, Bool.false_eq_true]
      cases hG : groupsRaw url (padded url (mem.take n)) with
      | none => exact ⟨_, _, rfl, rfl, rfl, rfl⟩
      | some x =>
        obtain ⟨w, k⟩ := x
        refine ⟨_, _, rfl, rfl, ?_, _, rfl, ?_, rfl⟩
        · simp
        · simp only [padTo, List.length_take]
          rw [List.take_append_of_le_length (by omega)]
          congr 1; omega

/-- **C05** Junk is ignored: removing every character that is neither in the alphabet nor `'='` changes neither the
return code nor the decoded bytes. -/
theorem C05_base64_junk_ignored (url : Bool) (text : Bytes) (s : Sched) (h : Heap) (hf : s.failAlloc h.tick = false) :
    ∃ o o' h1 h2, base64Decode url (some text) text.length false false s h = .ok (o, h1) ∧
      base64Decode url (some (text.filter (relevant url))) (text.filter (relevant url)).length false false s h = .ok (o', h2) ∧
      o.rc = o'.rc ∧ o.len = o'.len ∧
      ∀ len, o.len = some len → ∃ b b', o.out = some (some b) ∧ o'.out = some (some b') ∧ b.mem.take len = b'.mem.take len := by
  have hspec : b64Decode url (text.filter (relevant url)) = b64Decode url text := by
    simp only [b64Decode, List.filter_filter, Bool.and_self]
  obtain ⟨o, h1, hr1, hm1⟩ := C05_base64_decode_exact url text text.length s h (Nat.le_refl _) hf
  obtain ⟨o', h2, hr2, hm2⟩ := C05_base64_decode_exact url (text.filter (relevant url)) _ s h (Nat.le_refl _) hf
  refine ⟨o, o', h1, h2, hr1, hr2, ?_⟩
  rw [List.take_length] at hm1 hm2
  rw [hspec] at hm2
  cases hd : b64Decode url text with
  | none =>
    rw [hd] at hm1 hm2
    refine ⟨by rw [hm1.1, hm2.1], by rw [hm1.2.1, hm2.2.1], ?_⟩
    intro len hl; rw [hm1.2.1] at hl; cases hl
  | some d =>
    rw [hd] at hm1 hm2
    obtain ⟨a1, a2, b, a3, a4, _⟩ := hm1
    obtain ⟨c1, c2, b', c3, c4, _⟩ := hm2
    refine ⟨by rw [a1, c1], by rw [a2, c2], ?_⟩
    intro len hl
    rw [a2] at hl; cases hl
    exact ⟨b, b', a3, c3, by rw [a4, c4]⟩

/-- **C05** When the specification rejects: no relevant character, a count of 1 modulo 4, in standard mode any count that is
not a multiple of four, or more than two `'='` in the first group that contains one. -/
theorem C05_reject_count (url : Bool) (text : Bytes) (hc : (text.filter (relevant url)).length = 0 ∨
    (text.filter (relevant url)).length % 4 = 1 ∨ (url = false ∧ (text.filter (relevant url)).length % 4 ≠ 0)) :
    b64Decode url text = none := by
  unfold b64Decode; rw [if_pos hc]

/-- Full groups without padding before the first padded group. -/
theorem decodeGroups_none_iff (url : Bool) (r : Bytes) : decodeGroups url r = none ↔
    ∃ pre a b c d t, r = pre ++ a :: b :: c :: d :: t ∧ pre.length % 4 = 0 ∧ 61 ∉ pre ∧ 2 < [a, b, c, d].count 61 := by
  fun_induction decodeGroups url r with
  | case1 a b c d t p hp ih =>
    have hno : ∀ x ∈ [a, b, c, d], x ≠ 61 := by
      intro x hx h61; subst h61
      exact absurd (List.count_pos_iff.mpr hx) (by omega)
    simp only [Option.map_eq_none_iff, ih]
    constructor
    · rintro ⟨pre, x, y, z, w, t', rfl, hl, hn, hc⟩
      refine ⟨a :: b :: c :: d :: pre, x, y, z, w, t', by simp, by simp; omega, ?_, hc⟩
      simp only [List.mem_cons, not_or]
      refine ⟨?_, ?_, ?_, ?_, hn⟩ <;> (intro h; exact hno _ (by simp) h.symm)
    · rintro ⟨pre, x, y, z, w, t', he, hl, hn, hc⟩
      match pre, hl with
      | [], _ =>
        simp only [List.nil_append, List.cons.injEq] at he
        obtain ⟨rfl, rfl, rfl, rfl, rfl⟩ := he
        omega
      | [_], hl => simp at hl
      | [_, _], hl => simp at hl
      | [_, _, _], hl => simp at hl
      | x1 :: x2 :: x3 :: x4 :: pre', hl =>
        simp only [List.cons_append, List.cons.injEq] at he
        obtain ⟨rfl, rfl, rfl, rfl, rfl⟩ := he
        refine ⟨pre', x, y, z, w, t', rfl, ?_, ?_, hc⟩
        · simp at hl; omega
        · intro h; exact hn (by simp [h])
  | case2 a b c d t p hp hp2 =>
    simp only [reduceCtorEq, false_iff]
    rintro ⟨pre, x, y, z, w, t', he, hl, hn, hc⟩
    match pre, hl with
    | [], _ =>
      simp only [List.nil_append, List.cons.injEq] at he
      obtain ⟨rfl, rfl, rfl, rfl, rfl⟩ := he
      omega
    | [_], hl => simp at hl
    | [_, _], hl => simp at hl
    | [_, _, _], hl => simp at hl
    | x1 :: x2 :: x3 :: x4 :: pre', hl =>
      simp only [List.cons_append, List.cons.injEq] at he
      obtain ⟨rfl, rfl, rfl, rfl, rfl⟩ := he
      apply hp
      apply List.count_eq_zero.mpr
      intro h; apply hn
      simp only [List.mem_cons, List.not_mem_nil, or_false] at h ⊢
      rcases h with h | h | h | h <;> simp [h]
  | case3 a b c d t p hp hp2 =>
    simp only [true_iff]
    exact ⟨[], a, b, c, d, t, rfl, rfl, by simp, by omega⟩
  | case4 r hne =>
    simp only [reduceCtorEq, false_iff]
    rintro ⟨pre, x, y, z, w, t', he, hl, hn, hc⟩
    match pre, hl with
    | [], _ => exact hne x y z w t' he
    | [_], hl => simp at hl
    | [_, _], hl => simp at hl
    | [_, _, _], hl => simp at hl
    | x1 :: x2 :: x3 :: x4 :: pre', hl => exact hne _ _ _ _ _ he

/-- **C05** Exact rejection condition in terms of the relevant characters. -/
theorem C05_reject_iff (url : Bool) (text : Bytes) : b64Decode url text = none ↔
    ((text.filter (relevant url)).length = 0 ∨ (text.filter (relevant url)).length % 4 = 1 ∨
      (url = false ∧ (text.filter (relevant url)).length % 4 ≠ 0)) ∨
    ∃ pre a b c d t, text.filter (relevant url) ++
        List.replicate ((4 - (text.filter (relevant url)).length % 4) % 4) 61 = pre ++ a :: b :: c :: d :: t ∧
      pre.length % 4 = 0 ∧ 61 ∉ pre ∧ 2 < [a, b, c, d].count 61 := by
  unfold b64Decode
  simp only
  split
  · rename_i h; simp only [true_iff]; exact Or.inl h
  · rename_i h
    rw [decodeGroups_none_iff]
    constructor
    · intro h2; exact Or.inr h2
    · rintro (h1 | h2)
      · exact absurd h1 h
      · exact h2

example : b64Decode false (str "Q U\nI=") = some (str "AB") := by decide +kernel
example : b64Decode true (str "A===") = none := by decide +kernel

/-- **C06** Successful decoding is never empty. -/
theorem C06_base64_nonempty (url : Bool) (mem : Bytes) (n : Nat) (s : Sched) (h h' : Heap) (o : BufOut)
    (hm : n ≤ mem.length) (hrun : base64Decode url (some mem) n false false s h = .ok (o, h'))
    (hrc : o.rc = L8W8JWT_SUCCESS) : ∃ len, o.len = some len ∧ 1 ≤ len := by
  by_cases h0 : n = 0
  · subst h0
    have : base64Decode url (some mem) 0 false false s h = .ok ({ rc := L8W8JWT_INVALID_ARG }, h) := rfl
    rw [this] at hrun; cases hrun; exact absurd hrc (by decide)
  · rw [base64Decode_eq' url mem n s h hm h0] at hrun
    by_cases hb : badCount url (mem.take n)
    · simp only [hb, if_true] at hrun; cases hrun; exact absurd hrc (by decide)
    · simp only [hb, if_false] at hrun
      cases hf : s.failAlloc h.tick with
      | true => simp only [hf, if_true] at hrun; cases hrun; exact absurd hrc (by decide)
      | false =>
        simp only [hf, Bool.false_eq_true, if_false] at hrun
        cases hG : groupsRaw url (padded url (mem.take n)) with
        | none => simp only [hG] at hrun; cases hrun; exact absurd hrc (by decide)
        | some x =>
          obtain ⟨w, k⟩ := x
          simp only [hG] at hrun
          cases hrun
          refine ⟨_, rfl, ?_⟩
          have hbd := groupsRaw_bounds url _ _ _ hG
          have hpl : 4 ≤ (padded url (mem.take n)).length := by
            unfold badCount at hb
            simp only [padded, List.length_append, List.length_replicate]
            simp only at hb
            omega
          have := hbd.2.2 hpl
          omega

example : runs (base64Decode true (some (str "QQ")) 2 false false)
    (fun o => o.rc = L8W8JWT_SUCCESS ∧ o.len = some 1) := by decide +kernel

/-- **C07** as stated is false: `"AAB="` decodes to two bytes followed by 0x40, not by NUL. -/
theorem C07_base64_nul_false :
    ¬ ∀ (url : Bool) (mem : Bytes) (n : Nat) (s : Sched) (h h' : Heap) (o : BufOut) (blk : Block) (len : Nat),
      n ≤ mem.length → base64Decode url (some mem) n false false s h = .ok (o, h') → o.rc = L8W8JWT_SUCCESS →
      o.out = some (some blk) → o.len = some len → blk.mem[len]? = some 0 := by
  intro hall
  have hrun : base64Decode false (some (str "AAB=")) 4 false false calm heap0 =
      .ok ({ rc := 0, out := some (some ⟨0, [0, 0, 0x40] ++ List.replicate 16 0⟩), len := some 2 }, ⟨1, [0]⟩) := by
    decide +kernel
  have := hall false (str "AAB=") 4 calm heap0 _ _ _ _ (by decide) hrun rfl rfl rfl
  exact absurd this (by decide)

/-- **C07** The exact condition: the byte at `out_length` is NUL if and only if the first unused octet of the text is
zero (or there is none). Missing from the full statement: texts with non-zero unused bits. -/
theorem C07_base64_nul_partial (url : Bool) (mem : Bytes) (n : Nat) (s : Sched) (h h' : Heap) (o : BufOut) (blk : Block)
    (len : Nat) (hm : n ≤ mem.length) (hrun : base64Decode url (some mem) n false false s h = .ok (o, h'))
    (hrc : o.rc = L8W8JWT_SUCCESS) (hout : o.out = some (some blk)) (hlen : o.len = some len) :
    blk.mem[len]? = some 0 ↔ (leftover url (mem.take n)).headD 0 = 0 := by
  by_cases h0 : n = 0
  · subst h0
    have : base64Decode url (some mem) 0 false false s h = .ok ({ rc := L8W8JWT_INVALID_ARG }, h) := rfl
    rw [this] at hrun; cases hrun; exact absurd hrc (by decide)
  · rw [base64Decode_eq' url mem n s h hm h0] at hrun
    by_cases hb : badCount url (mem.take n)
    · simp only [hb, if_true] at hrun; cases hrun; exact absurd hrc (by decide)
    · simp only [hb, if_false] at hrun
      cases hf : s.failAlloc h.tick with
      | true => simp only [hf, if_true] at hrun; cases hrun; exact absurd hrc (by decide)
      | false =>
        simp only [hf, Bool.false_eq_true, if_false] at hrun
        cases hG : groupsRaw url (padded url (mem.take n)) with
        | none => simp only [hG] at hrun; cases hrun; exact absurd hrc (by decide)
        | some x =>
          obtain ⟨w, k⟩ := x
          simp only [hG] at hrun
          cases hrun
          cases hout; cases hlen
          have hbd := (groupsRaw_bounds url _ _ _ hG).1
          simp only [padded, List.length_append, List.length_replicate] at hbd
          rw [leftover_eq, ← groupsRaw_leftover url _ _ _ hG]
          simp only [padTo]
          by_cases hk : w.length - k < w.length
          · rw [List.getElem?_append_left hk]
            rw [List.headD_eq_head?_getD, List.head?_drop]
            rw [List.getElem?_eq_getElem hk]; simp
          · have : w.length - k = w.length := by omega
            rw [this, List.drop_length, List.getElem?_append_right (Nat.le_refl _)]
            rw [Nat.sub_self, List.getElem?_replicate, if_pos (by omega)]
            simp

/-- **C07** holds for every text the encoder produces. -/
theorem C07_base64_nul_encoded (url : Bool) (d : Bytes) : (leftover url (b64Text url d)).headD 0 = 0 := by
  rw [leftover_eq, padded_text, ← groupsRaw_leftover url _ _ _ (groupsRaw_b64 url d)]
  simp
  cases urlPad d.length <;> simp [List.replicate_succ]

example : leftover false (str "AAB=") = [0x40] := by decide +kernel

/-! ## C59 -/

/-- **C59** `l8w8jwt_base64_encode` returns exactly the documented code, for all combinations of NULL arguments; unless it succeeds
it does not write `*out_length`, writes at most NULL to `*out`, and leaves no block allocated. (`hu`: C02_base64_url_overflow.) -/
theorem C59_base64_encode_code (url : Bool) (data : Option Bytes) (n : Nat) (outNull lenNull : Bool) (s : Sched) (h : Heap) (hn : n < 2 ^ 64)
    (hm : ∀ mem, data = some mem → n ≤ mem.length) (hu : url = true → n < 2 ^ 62 → 4 * ((n + 2) / 3) ≤ 2147483647) :
    ∃ o h', base64Encode url data n outNull lenNull s h = .ok (o, h') ∧
      o.rc = b64EncCode (data.isNone || outNull || lenNull) n (s.failAlloc h.tick) ∧
      (o.rc ≠ Code.success → o.len = none ∧ (o.out = none ∨ o.out = some none) ∧ h'.live = h.live) := by
  cases data with
  | none => exact ⟨_, _, rfl, rfl, fun _ => ⟨rfl, Or.inl rfl, rfl⟩⟩
  | some mem =>
    by_cases hz : (outNull || lenNull) = true
    · refine ⟨{ rc := L8W8JWT_NULL_ARG }, h, by simp only [base64Encode, hz, if_true, run_pure], ?_, fun _ => ⟨rfl, Or.inl rfl, rfl⟩⟩
      unfold b64EncCode
      rw [Option.isNone_some, Bool.false_or, if_pos hz]
    · have hz' : outNull = false ∧ lenNull = false := by simpa using hz
      obtain ⟨rfl, rfl⟩ := hz'
      have hm := hm mem rfl
      unfold b64EncCode
      simp only [Option.isNone_some, Bool.or_self, Bool.false_eq_true, if_false]
      by_cases h0 : n = 0
      · subst h0
        exact ⟨_, _, rfl, rfl, fun _ => ⟨rfl, Or.inl rfl, rfl⟩⟩
      by_cases hb : 2 ^ 62 ≤ n
      · rw [base64Encode_toolarge url mem n s h hb hn, if_neg h0, if_pos hb]
        exact ⟨_, _, rfl, rfl, fun _ => ⟨rfl, Or.inl rfl, rfl⟩⟩
      · rw [base64Encode_eq url mem n s h hm h0 (by omega) (fun e => hu e (by omega)), if_neg h0, if_neg hb]
        cases s.failAlloc h.tick with
        | true => exact ⟨_, _, rfl, rfl, fun _ => ⟨rfl, Or.inr rfl, rfl⟩⟩
        | false => exact ⟨_, _, rfl, rfl, fun hx => absurd rfl hx⟩

/-- **C59** The same for `l8w8jwt_base64_decode`. -/
theorem C59_base64_decode_code (url : Bool) (data : Option Bytes) (n : Nat) (outNull lenNull : Bool) (s : Sched) (h : Heap)
    (hm : ∀ mem, data = some mem → n ≤ mem.length) :
    ∃ o h', base64Decode url data n outNull lenNull s h = .ok (o, h') ∧
      o.rc = b64DecCode url (data.isNone || outNull || lenNull) ((data.getD []).take n) (s.failAlloc h.tick) ∧
      (o.rc ≠ Code.success → o.len = none ∧ (o.out = none ∨ o.out = some none) ∧ h'.live = h.live) := by
  cases data with
  | none => exact ⟨_, _, rfl, rfl, fun _ => ⟨rfl, Or.inl rfl, rfl⟩⟩
  | some mem =>
    by_cases hz : (outNull || lenNull) = true
    · refine ⟨{ rc := L8W8JWT_NULL_ARG }, h, by simp only [base64Decode, hz, if_true, run_pure], ?_, fun _ => ⟨rfl, Or.inl rfl, rfl⟩⟩
      unfold b64DecCode
      rw [Option.isNone_some, Bool.false_or, if_pos hz]
    · have hz' : outNull = false ∧ lenNull = false := by simpa using hz
      obtain ⟨rfl, rfl⟩ := hz'
      have hm := hm mem rfl
      unfold b64DecCode
      simp only [Option.isNone_some, Bool.or_self, Bool.false_eq_true, if_false, Option.getD_some]
      by_cases h0 : n = 0
      · subst h0
        exact ⟨_, _, rfl, rfl, fun _ => ⟨rfl, Or.inl rfl, rfl⟩⟩
      rw [base64Decode_eq' url mem n s h hm h0]
      by_cases hb : badCount url (mem.take n)
      · have hb' := hb
        simp only [badCount] at hb'
        rw [if_pos hb, if_pos hb']
        exact ⟨_, _, rfl, rfl, fun _ => ⟨rfl, Or.inl rfl, rfl⟩⟩
      · have hb' := hb
        simp only [badCount] at hb'
        have e := b64Decode_eq url (mem.take n)
        rw [if_neg hb] at e
        rw [if_neg hb, if_neg hb']
        cases s.failAlloc h.tick with
        | true => exact ⟨_, _, rfl, rfl, fun _ => ⟨rfl, Or.inr rfl, rfl⟩⟩
        | false =>
          cases hg : groupsRaw url (padded url (mem.take n)) with
          | none =>
            rw [hg] at e
            rw [if_neg Bool.false_ne_true, if_neg Bool.false_ne_true, if_pos (show b64Decode url (mem.take n) = none from e)]
            exact ⟨_, _, rfl, rfl, fun _ => ⟨rfl, Or.inr rfl, rfl⟩⟩
          | some x =>
            rw [hg] at e
            rw [if_neg Bool.false_ne_true, if_neg Bool.false_ne_true, if_neg (by rw [e]; exact Option.some_ne_none _)]
            exact ⟨_, _, rfl, rfl, fun hx => absurd rfl hx⟩

example : b64EncCode false 5 false = 0 ∧ b64EncCode true 0 true = 100 ∧ b64EncCode false 0 true = 200 ∧ b64EncCode false (2 ^ 62) true = 310 ∧
    b64EncCode false 5 true = 300 := by decide +kernel
example : b64DecCode true false (str "e30") false = 0 ∧ b64DecCode false false (str "e30") false = 200 ∧
    b64DecCode true false (str "e30") true = 300 ∧ b64DecCode true false (str "e===") false = 200 ∧
    b64DecCode true false (str "e===") true = 300 ∧ b64DecCode true true (str "e30") false = 100 := by decide +kernel

end L8w8jwt
