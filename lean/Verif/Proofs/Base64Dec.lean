import Verif.Model.Base64
import Verif.Spec.Base64
import Verif.Proofs.Hoare
import Verif.Proofs.Base64Enc
/-!
# Decoder: the model computes the specified decoding
-/

namespace L8w8jwt
open Spec

/-- The entries of the reverse table in terms of the alphabet. -/
def dtSpec (url : Bool) (c : UInt8) : UInt8 := if c = 61 then 0 else UInt8.ofNat ((b64Value url c).getD 0x80)

theorem dtable_eq (url : Bool) : dtable url = (List.range 256).map fun c => dtSpec url (UInt8.ofNat c) := by
  cases url <;> decide +kernel

theorem dt_eq (url : Bool) (c : UInt8) : dt url c = dtSpec url c := by
  have hc := c.toNat_lt
  have hc' : c.toNat < (List.range 256).length := by rw [List.length_range]; omega
  unfold dt
  rw [dtable_eq, List.getD_eq_getElem?_getD, List.getElem?_map, List.getElem?_range (by omega)]
  simp

theorem b64Value_lt (url : Bool) (c : UInt8) (v : Nat) (h : b64Value url c = some v) : v < 64 := by
  have key : ∀ (u : Bool) (j : Fin 256), (b64Value u (UInt8.ofNat j.val)).getD 0 < 64 := by decide +kernel
  have := key url ⟨c.toNat, c.toNat_lt⟩
  simp [h] at this
  exact this

theorem value_pad (url : Bool) : b64Value url 61 = none := by cases url <;> decide

theorem dt_junk (url : Bool) (c : UInt8) : dt url c = 0x80 ↔ relevant url c = false := by
  rw [dt_eq]; unfold dtSpec relevant
  by_cases h : c = 61
  · simp [h]
  · simp only [h, if_false]
    cases hv : b64Value url c with
    | none => simp [h]
    | some v =>
      have := b64Value_lt url c v hv
      simp only [Option.getD_some, Option.isSome_some, Bool.true_or]
      constructor
      · intro he
        have : (UInt8.ofNat v).toNat = 128 := by rw [he]; rfl
        simp at this; omega
      · simp

theorem dt_val (url : Bool) (c : UInt8) (h : relevant url c = true) : (dt url c).toNat = (b64Value url c).getD 0 := by
  rw [dt_eq]; unfold dtSpec relevant at *
  by_cases h61 : c = 61
  · simp [h61, value_pad]
  · simp only [h61, if_false]
    cases hv : b64Value url c with
    | none => simp [hv, h61] at h
    | some v =>
      have := b64Value_lt url c v hv
      simp; omega

theorem val_lt (url : Bool) (c : UInt8) : (b64Value url c).getD 0 < 64 := by
  cases hv : b64Value url c with
  | none => simp
  | some v => exact b64Value_lt url c v hv

theorem b64Count_eq (url : Bool) (l : Bytes) : b64Count url l = (l.filter (relevant url)).length := by
  induction l with
  | nil => rfl
  | cons c t ih =>
    simp only [b64Count, ih, List.filter_cons]
    by_cases h : relevant url c = true
    · have : dt url c ≠ 0x80 := by rw [ne_eq, dt_junk]; simp [h]
      simp [h, this]; omega
    · have : dt url c = 0x80 := by rw [dt_junk]; simpa using h
      simp [h, this]

theorem decLoop_filter (url : Bool) (l : Bytes) (blk : List Nat) (pad : Nat) :
    b64DecLoop url l blk pad = b64DecLoop url (l.filter (relevant url)) blk pad := by
  induction l generalizing blk pad with
  | nil => rfl
  | cons c t ih =>
    by_cases h : relevant url c = true
    · have hne : dt url c ≠ 0x80 := by rw [ne_eq, dt_junk]; simp [h]
      rw [List.filter_cons_of_pos h]
      simp only [b64DecLoop, hne, if_false]
      simp only [ih]
    · have he : dt url c = 0x80 := by rw [dt_junk]; simpa using h
      rw [List.filter_cons_of_neg h]
      rw [← ih]
      simp [b64DecLoop, he]

/-- Groups of four with all the octets computed, and how many of them are dropped at the end. -/
def groupsRaw (url : Bool) : Bytes → Option (Bytes × Nat)
  | a :: b :: c :: d :: t =>
    let p := [a, b, c, d].count 61
    if p = 0 then (groupsRaw url t).map (fun r => (groupBytes url a b c d ++ r.1, r.2))
    else if p ≤ 2 then some (groupBytes url a b c d, p)
    else none
  | _ => some ([], 0)

theorem ofNat_congr (a b : Nat) (h : a % 256 = b % 256) : UInt8.ofNat a = UInt8.ofNat b := by
  apply UInt8.toNat_inj.mp
  simpa using h

theorem or_shift' (a b k : Nat) (hb : b < 2 ^ k) : (a <<< k) ||| b = a * 2 ^ k + b := or_shift a b k hb

theorem group_eq (url : Bool) (a b c d : UInt8) (ha : relevant url a) (hb : relevant url b) (hc : relevant url c)
    (hd : relevant url d) :
    [UInt8.ofNat (((dt url a).toNat <<< 2) ||| ((dt url b).toNat >>> 4)),
     UInt8.ofNat (((dt url b).toNat <<< 4) ||| ((dt url c).toNat >>> 2)),
     UInt8.ofNat (((dt url c).toNat <<< 6) ||| (dt url d).toNat)] = groupBytes url a b c d := by
  rw [dt_val _ _ ha, dt_val _ _ hb, dt_val _ _ hc, dt_val _ _ hd]
  have h1 := val_lt url a; have h2 := val_lt url b; have h3 := val_lt url c; have h4 := val_lt url d
  simp only [Nat.shiftRight_eq_div_pow]
  rw [or_shift _ _ 2 (by omega), or_shift _ _ 4 (by omega), or_shift _ _ 6 (by omega)]
  simp only [groupBytes, List.cons.injEq, and_true]
  refine ⟨ofNat_congr _ _ ?_, ofNat_congr _ _ ?_, ofNat_congr _ _ ?_⟩ <;> omega

theorem decLoop_raw (url : Bool) (r : Bytes) (hr : ∀ c ∈ r, relevant url c = true) (h4 : r.length % 4 = 0) :
    b64DecLoop url r [] 0 = groupsRaw url r := by
  fun_induction groupsRaw url r with
  | case1 a b c d t p hp ih =>
    simp only [List.mem_cons, forall_eq_or_imp] at hr
    obtain ⟨ha, hb, hc, hd, ht⟩ := hr
    have na : dt url a ≠ 0x80 := by rw [ne_eq, dt_junk]; simp [ha]
    have nb : dt url b ≠ 0x80 := by rw [ne_eq, dt_junk]; simp [hb]
    have nc : dt url c ≠ 0x80 := by rw [ne_eq, dt_junk]; simp [hc]
    have nd : dt url d ≠ 0x80 := by rw [ne_eq, dt_junk]; simp [hd]
    have e := group_eq url a b c d ha hb hc hd
    have : ∀ x ∈ [a, b, c, d], x ≠ 61 := by
      intro x hx h61; subst h61
      exact absurd (List.count_pos_iff.mpr hx) (by omega)
    simp only [List.mem_cons, forall_eq_or_imp, List.not_mem_nil, false_imp_iff, implies_true, and_true] at this
    obtain ⟨xa, xb, xc, xd⟩ := this
    simp only [List.length_cons] at h4
    simp only [b64DecLoop, na, nb, nc, nd, xa, xb, xc, xd, if_false, List.nil_append, List.cons_append]
    rw [ih ht (by omega)]
    cases groupsRaw url t with
    | none => rfl
    | some x => simp only [if_true, Option.map_some, ← e, List.cons_append, List.nil_append]
  | case2 a b c d t p hp hp2 =>
    simp only [List.mem_cons, forall_eq_or_imp] at hr
    obtain ⟨ha, hb, hc, hd, ht⟩ := hr
    have na : dt url a ≠ 0x80 := by rw [ne_eq, dt_junk]; simp [ha]
    have nb : dt url b ≠ 0x80 := by rw [ne_eq, dt_junk]; simp [hb]
    have nc : dt url c ≠ 0x80 := by rw [ne_eq, dt_junk]; simp [hc]
    have nd : dt url d ≠ 0x80 := by rw [ne_eq, dt_junk]; simp [hd]
    have e := group_eq url a b c d ha hb hc hd
    simp only [b64DecLoop, na, nb, nc, nd, if_false, List.nil_append, List.cons_append, e]
    have hpc : p = (if a = 61 then 1 else 0) + (if b = 61 then 1 else 0) + (if c = 61 then 1 else 0) + (if d = 61 then 1 else 0) := by
      simp only [p, List.count_cons, List.count_nil, beq_iff_eq]; omega
    have hpp : (if d = 61 then (if c = 61 then (if b = 61 then (if a = 61 then 0 + 1 else 0) + 1 else (if a = 61 then 0 + 1 else 0)) + 1 else (if b = 61 then (if a = 61 then 0 + 1 else 0) + 1 else (if a = 61 then 0 + 1 else 0))) + 1 else (if c = 61 then (if b = 61 then (if a = 61 then 0 + 1 else 0) + 1 else (if a = 61 then 0 + 1 else 0)) + 1 else (if b = 61 then (if a = 61 then 0 + 1 else 0) + 1 else (if a = 61 then 0 + 1 else 0)))) = p := by
      rw [hpc]; split <;> split <;> split <;> split <;> rfl
    rw [hpp, if_neg hp]
    have : p = 1 ∨ p = 2 := by omega
    rcases this with h | h <;> simp [h]
  | case3 a b c d t p hp hp2 =>
    simp only [List.mem_cons, forall_eq_or_imp] at hr
    obtain ⟨ha, hb, hc, hd, ht⟩ := hr
    have na : dt url a ≠ 0x80 := by rw [ne_eq, dt_junk]; simp [ha]
    have nb : dt url b ≠ 0x80 := by rw [ne_eq, dt_junk]; simp [hb]
    have nc : dt url c ≠ 0x80 := by rw [ne_eq, dt_junk]; simp [hc]
    have nd : dt url d ≠ 0x80 := by rw [ne_eq, dt_junk]; simp [hd]
    simp only [b64DecLoop, na, nb, nc, nd, if_false, List.nil_append, List.cons_append]
    have hpc : p = (if a = 61 then 1 else 0) + (if b = 61 then 1 else 0) + (if c = 61 then 1 else 0) + (if d = 61 then 1 else 0) := by
      simp only [p, List.count_cons, List.count_nil, beq_iff_eq]; omega
    have hpp : (if d = 61 then (if c = 61 then (if b = 61 then (if a = 61 then 0 + 1 else 0) + 1 else (if a = 61 then 0 + 1 else 0)) + 1 else (if b = 61 then (if a = 61 then 0 + 1 else 0) + 1 else (if a = 61 then 0 + 1 else 0))) + 1 else (if c = 61 then (if b = 61 then (if a = 61 then 0 + 1 else 0) + 1 else (if a = 61 then 0 + 1 else 0)) + 1 else (if b = 61 then (if a = 61 then 0 + 1 else 0) + 1 else (if a = 61 then 0 + 1 else 0)))) = p := by
      rw [hpc]; split <;> split <;> split <;> split <;> rfl
    rw [hpp, if_neg hp, if_neg (by omega), if_neg (by omega)]
  | case4 r hne =>
    match r, hne with
    | [], _ => rfl
    | [_], _ => simp at h4
    | [_, _], _ => simp at h4
    | [_, _, _], _ => simp at h4
    | a :: b :: c :: d :: t, hne => exact absurd rfl (hne a b c d t)

theorem groupBytes_length (url : Bool) (a b c d : UInt8) : (groupBytes url a b c d).length = 3 := rfl

theorem groupsRaw_bounds (url : Bool) (r w : Bytes) (k : Nat) (h : groupsRaw url r = some (w, k)) :
    w.length ≤ 3 * (r.length / 4) ∧ k ≤ 2 ∧ (r.length ≥ 4 → w.length ≥ 3) := by
  fun_induction groupsRaw url r generalizing w k with
  | case1 a b c d t p hp ih =>
    cases hg : groupsRaw url t with
    | none => simp [hg] at h
    | some x =>
      simp only [hg, Option.map_some, Option.some.injEq, Prod.mk.injEq] at h
      obtain ⟨rfl, rfl⟩ := h
      have := ih x.1 x.2 (by rw [hg])
      simp only [List.length_append, groupBytes_length, List.length_cons]
      omega
  | case2 a b c d t p hp hp2 =>
    simp only [Option.some.injEq, Prod.mk.injEq] at h
    obtain ⟨rfl, rfl⟩ := h
    simp only [groupBytes_length, List.length_cons]; omega
  | case3 => simp at h
  | case4 r hne =>
    simp only [Option.some.injEq, Prod.mk.injEq] at h
    obtain ⟨rfl, rfl⟩ := h
    match r, hne with
    | [], _ => simp
    | [_], _ => simp
    | [_, _], _ => simp
    | [_, _, _], _ => simp
    | a :: b :: c :: d :: t, hne => exact absurd rfl (hne a b c d t)

theorem groupsRaw_spec (url : Bool) (r : Bytes) :
    decodeGroups url r = (groupsRaw url r).map fun x => x.1.take (x.1.length - x.2) := by
  fun_induction groupsRaw url r with
  | case1 a b c d t p hp ih =>
    rw [decodeGroups, if_pos hp, ih]
    cases hg : groupsRaw url t with
    | none => simp
    | some x =>
      have hb := groupsRaw_bounds url t x.1 x.2 (by rw [hg])
      simp only [Option.map_some, Option.some.injEq, List.length_append, groupBytes_length]
      by_cases ht : t.length ≥ 4
      · have := hb.2.2 ht
        rw [show 3 + x.1.length - x.2 = (groupBytes url a b c d).length + (x.1.length - x.2) by
          rw [groupBytes_length]; omega, List.take_length_add_append]
      · have hx : x = ([], 0) := by
          have : groupsRaw url t = some ([], 0) := by
            match t, ht with
            | [], _ => rfl
            | [_], _ => rfl
            | [_, _], _ => rfl
            | [_, _, _], _ => rfl
            | a :: b :: c :: d :: t, h => simp at h
          rw [this] at hg; exact (Option.some.inj hg).symm
        subst hx; rfl
  | case2 a b c d t p hp hp2 =>
    rw [decodeGroups, if_neg hp, if_pos hp2]; simp [groupBytes_length]; rfl
  | case3 a b c d t p hp hp2 => rw [decodeGroups, if_neg hp, if_neg hp2]; rfl
  | case4 r hne =>
    match r, hne with
    | [], _ => rfl
    | [_], _ => rfl
    | [_, _], _ => rfl
    | [_, _, _], _ => rfl
    | a :: b :: c :: d :: t, hne => exact absurd rfl (hne a b c d t)

/-- One trailing NUL is not part of the text. -/
def dropNul (t : Bytes) : Bytes := if t.getLast? = some 0 then t.dropLast else t

/-- The padded relevant characters of a text. -/
def padded (url : Bool) (text : Bytes) : Bytes :=
  let r := text.filter (relevant url)
  r ++ List.replicate ((4 - r.length % 4) % 4) 61

/-- Texts rejected because of the number of relevant characters. -/
def badCount (url : Bool) (text : Bytes) : Prop :=
  let r := text.filter (relevant url)
  r.length = 0 ∨ r.length % 4 = 1 ∨ (url = false ∧ r.length % 4 ≠ 0)

instance (url : Bool) (text : Bytes) : Decidable (badCount url text) := by unfold badCount; exact inferInstance

theorem b64Decode_eq (url : Bool) (text : Bytes) : b64Decode url text =
    if badCount url text then none else (groupsRaw url (padded url text)).map fun x => x.1.take (x.1.length - x.2) := by
  unfold b64Decode badCount padded
  simp only [groupsRaw_spec]

/-- The decoder on an object that has `n` bytes: all outcomes. -/
theorem base64Decode_eq (url : Bool) (mem : Bytes) (n : Nat) (s : Sched) (h : Heap) (hm : n ≤ mem.length) (h0 : n ≠ 0) :
    base64Decode url (some mem) n false false s h =
      if badCount url (dropNul (mem.take n)) then .ok ({ rc := L8W8JWT_INVALID_ARG }, h)
      else if s.failAlloc h.tick then
        .ok ({ rc := L8W8JWT_OUT_OF_MEM, out := some none }, { h with tick := h.tick + 1 })
      else match groupsRaw url (padded url (dropNul (mem.take n))) with
        | none => .ok ({ rc := L8W8JWT_INVALID_ARG, out := some none }, { h with tick := h.tick + 1 })
        | some (w, k) =>
          .ok ({ rc := L8W8JWT_SUCCESS,
                 out := some (some ⟨h.tick, padTo (((dropNul (mem.take n)).filter (relevant url)).length / 4 * 3 + 16) w⟩),
                 len := some (w.length - k) }, { tick := h.tick + 1, live := h.tick :: h.live }) := by
  have hg : rd mem (n - 1) = .ok mem[n - 1] := by simp [rd, List.getElem?_eq_getElem (show n - 1 < mem.length by omega)]
  have hlast : (mem.take n).getLast? = some mem[n - 1] := by
    rw [List.getLast?_eq_getElem?]
    simp [hm]
    rw [List.getElem?_take_of_lt (by omega), List.getElem?_eq_getElem (by omega)]
  have hd : mem.take (if mem[n - 1] = 0 then n - 1 else n) = dropNul (mem.take n) := by
    unfold dropNul
    rw [hlast]
    by_cases hz : mem[n - 1] = 0
    · rw [if_pos hz, if_pos (by rw [hz]), List.dropLast_eq_take, List.take_take]; simp [hm]
    · simp [hz]
  have hr : rdN mem (if mem[n - 1] = 0 then n - 1 else n) = .ok (dropNul (mem.take n)) := by
    rw [← hd]; unfold rdN; rw [if_pos (by split <;> omega)]
  have hcond (L : Nat) : (decide (L = 0) || decide (L % 4 = 1) || !url && decide (0 < L % 4)) =
      decide (L = 0 ∨ L % 4 = 1 ∨ (url = false ∧ L % 4 ≠ 0)) := by
    cases url <;> simp [Nat.pos_iff_ne_zero, Bool.or_assoc]
  unfold base64Decode
  simp only [Bool.or_self, Bool.false_eq_true, if_false, h0, run_bind, hg, run_lift_ok, hr, b64Count_eq]
  generalize hT : dropNul (mem.take n) = T
  rw [hcond]
  by_cases hb : badCount url T
  · rw [if_pos hb, if_pos (by unfold badCount at hb; simpa using hb), run_pure]
  · have hpad : (if (T.filter (relevant url)).length % 4 = 3 then 1 else (T.filter (relevant url)).length % 4) =
        (4 - (T.filter (relevant url)).length % 4) % 4 := by
      unfold badCount at hb
      simp only at hb
      split <;> omega
    have hloop : b64DecLoop url (T ++ List.replicate ((4 - (T.filter (relevant url)).length % 4) % 4) 61) [] 0 =
        groupsRaw url (padded url T) := by
      rw [decLoop_filter, List.filter_append]
      have : (List.replicate ((4 - (T.filter (relevant url)).length % 4) % 4) (61 : UInt8)).filter (relevant url) =
          List.replicate ((4 - (T.filter (relevant url)).length % 4) % 4) 61 := by
        apply List.filter_eq_self.mpr
        intro a ha; rw [List.eq_of_mem_replicate ha]; simp [relevant]
      rw [this]
      apply decLoop_raw
      · intro c hc
        rcases List.mem_append.mp hc with hc | hc
        · exact (List.mem_filter.mp hc).2
        · rw [List.eq_of_mem_replicate hc]; simp [relevant]
      · rw [List.length_append, List.length_replicate]; omega
    rw [if_neg hb, if_neg (by unfold badCount at hb; simpa using hb)]
    simp only [hpad, hloop, alloc, run_bind]
    cases hf : s.failAlloc h.tick with
    | true => simp [run_pure]
    | false =>
      simp only [Bool.false_eq_true, if_false]
      cases hG : groupsRaw url (padded url T) with
      | none => simp [free, run_pure, run_bind]
      | some x =>
        obtain ⟨w, k⟩ := x
        have hb := groupsRaw_bounds url _ _ _ hG
        have : ¬ (T.filter (relevant url)).length / 4 * 3 + 16 < w.length := by
          have h1 := hb.1
          simp only [padded, List.length_append, List.length_replicate] at h1
          omega
        simp only [this, if_false, run_pure]

theorem filter_dropNul (url : Bool) (t : Bytes) : (dropNul t).filter (relevant url) = t.filter (relevant url) := by
  unfold dropNul
  split
  · rename_i h
    have := List.dropLast_concat_getLast (l := t) (by rintro rfl; simp at h)
    conv => rhs; rw [← this]
    rw [List.getLast?_eq_some_getLast (by rintro rfl; simp at h)] at h
    rw [Option.some.inj h, List.filter_append]
    have : relevant url 0 = false := by cases url <;> decide
    simp [this]
  · rfl

theorem padded_dropNul (url : Bool) (t : Bytes) : padded url (dropNul t) = padded url t := by
  simp only [padded, filter_dropNul]

theorem badCount_dropNul (url : Bool) (t : Bytes) : badCount url (dropNul t) = badCount url t := by
  simp only [badCount, filter_dropNul]

/-- The decoder on an object that has `n` bytes: all outcomes. -/
theorem base64Decode_eq' (url : Bool) (mem : Bytes) (n : Nat) (s : Sched) (h : Heap) (hm : n ≤ mem.length) (h0 : n ≠ 0) :
    base64Decode url (some mem) n false false s h =
      if badCount url (mem.take n) then .ok ({ rc := L8W8JWT_INVALID_ARG }, h)
      else if s.failAlloc h.tick then
        .ok ({ rc := L8W8JWT_OUT_OF_MEM, out := some none }, { h with tick := h.tick + 1 })
      else match groupsRaw url (padded url (mem.take n)) with
        | none => .ok ({ rc := L8W8JWT_INVALID_ARG, out := some none }, { h with tick := h.tick + 1 })
        | some (w, k) =>
          .ok ({ rc := L8W8JWT_SUCCESS,
                 out := some (some ⟨h.tick, padTo (((mem.take n).filter (relevant url)).length / 4 * 3 + 16) w⟩),
                 len := some (w.length - k) }, { tick := h.tick + 1, live := h.tick :: h.live }) := by
  rw [base64Decode_eq url mem n s h hm h0]
  simp only [badCount_dropNul, padded_dropNul, filter_dropNul]

theorem value_alphabet (url : Bool) (i : Nat) (hi : i < 64) : b64Value url (alphabet url i) = some i := by
  have key : ∀ (u : Bool) (j : Fin 64), b64Value u (alphabet u j.val) = some j.val := by decide +kernel
  exact key url ⟨i, hi⟩

theorem relevant_alphabet (url : Bool) (i : Nat) (hi : i < 64) : relevant url (alphabet url i) = true := by
  simp [relevant, value_alphabet url i hi]

theorem alphabet_ne_pad (url : Bool) (i : Nat) (hi : i < 64) : alphabet url i ≠ 61 := by
  intro h
  have := value_alphabet url i hi
  rw [h, value_pad] at this; simp at this

/-- Every character of the encoding is in the alphabet. -/
theorem b64_mem (url : Bool) (d : Bytes) (c : UInt8) (hc : c ∈ b64 url d) : ∃ i < 64, c = alphabet url i := by
  fun_induction b64 url d with
  | case1 a b c' t n ih =>
    have ha := a.toNat_lt; have hb := b.toNat_lt; have hc' := c'.toNat_lt
    simp only [List.mem_cons] at hc
    rcases hc with h | h | h | h | h
    · exact ⟨_, by omega, h⟩
    · exact ⟨_, by omega, h⟩
    · exact ⟨_, by omega, h⟩
    · exact ⟨_, by omega, h⟩
    · exact ih h
  | case2 a b n =>
    have ha := a.toNat_lt; have hb := b.toNat_lt
    simp only [List.mem_cons, List.not_mem_nil, or_false] at hc
    rcases hc with h | h | h
    · exact ⟨_, by omega, h⟩
    · exact ⟨_, by omega, h⟩
    · exact ⟨_, by omega, h⟩
  | case3 a n =>
    have ha := a.toNat_lt
    simp only [List.mem_cons, List.not_mem_nil, or_false] at hc
    rcases hc with h | h
    · exact ⟨_, by omega, h⟩
    · exact ⟨_, by omega, h⟩
  | case4 => simp at hc

theorem filter_b64 (url : Bool) (d : Bytes) : (b64 url d).filter (relevant url) = b64 url d := by
  apply List.filter_eq_self.mpr
  intro c hc
  obtain ⟨i, hi, rfl⟩ := b64_mem url d c hc
  exact relevant_alphabet url i hi

theorem filter_wrap72 (l : Bytes) (k : Nat) : (wrap72 l k).filter (relevant false) = l.filter (relevant false) := by
  have h10 : relevant false 10 = false := by decide
  fun_induction wrap72 l k with
  | case1 => rfl
  | case2 => simp [h10]
  | case3 c t ih => simp only [List.filter_cons, h10, ih, Bool.false_eq_true, if_false]
  | case4 c t k h ih => simp only [List.filter_cons, ih]

theorem filter_replicate_pad (url : Bool) (k : Nat) :
    (List.replicate k (61 : UInt8)).filter (relevant url) = List.replicate k 61 := by
  apply List.filter_eq_self.mpr
  intro a ha; rw [List.eq_of_mem_replicate ha]; simp [relevant]

theorem pad_arith (n : Nat) : (4 - (n * 4 + 2) / 3 % 4) % 4 = urlPad n ∧ ((n * 4 + 2) / 3 + urlPad n) % 4 = 0 := by
  unfold urlPad
  obtain ⟨k, hk⟩ : ∃ k, n = 3 * k ∨ n = 3 * k + 1 ∨ n = 3 * k + 2 := ⟨n / 3, by omega⟩
  rcases hk with rfl | rfl | rfl
  · rw [show (3 * k * 4 + 2) / 3 = 4 * k by omega]; omega
  · rw [show ((3 * k + 1) * 4 + 2) / 3 = 4 * k + 2 by omega]; omega
  · rw [show ((3 * k + 2) * 4 + 2) / 3 = 4 * k + 3 by omega]; omega

/-- The relevant characters of the encoder's text, padded. -/
theorem padded_text (url : Bool) (d : Bytes) : padded url (b64Text url d) =
    b64 url d ++ List.replicate (urlPad d.length) 61 := by
  have hp : (4 - (b64 url d).length % 4) % 4 = urlPad d.length := by rw [b64_length]; exact (pad_arith _).1
  cases url with
  | true => simp only [padded, b64Text, if_true, filter_b64, hp]
  | false =>
    simp only [padded, b64Text, Bool.false_eq_true, if_false, filter_wrap72, b64Padded, List.filter_append, filter_b64,
      filter_replicate_pad, hp, List.length_append, List.length_replicate]
    rw [show (4 - ((b64 false d).length + urlPad d.length) % 4) % 4 = 0 by rw [b64_length, (pad_arith _).2]]
    simp

theorem groupBytes_of (url : Bool) (i j k l : Nat) (hi : i < 64) (hj : j < 64) (hk : k < 64) (hl : l < 64)
    (x y z : UInt8) (e : i * 262144 + j * 4096 + k * 64 + l = x.toNat * 65536 + y.toNat * 256 + z.toNat) :
    groupBytes url (alphabet url i) (alphabet url j) (alphabet url k) (alphabet url l) = [x, y, z] := by
  have hx := x.toNat_lt; have hy := y.toNat_lt; have hz := z.toNat_lt
  simp only [groupBytes, value_alphabet _ _ hi, value_alphabet _ _ hj, value_alphabet _ _ hk, value_alphabet _ _ hl,
    Option.getD_some, e]
  simp only [List.cons.injEq, and_true]
  refine ⟨?_, ?_, ?_⟩ <;> apply UInt8.toNat_inj.mp <;> simp only [UInt8.toNat_ofNat'] <;> omega

/-- Decoding the encoder's groups yields the data; the unused octets are zero. -/
theorem groupsRaw_b64 (url : Bool) (d : Bytes) :
    groupsRaw url (b64 url d ++ List.replicate (urlPad d.length) 61) =
      some (d ++ List.replicate (urlPad d.length) 0, urlPad d.length) := by
  induction d using b64.induct with
  | case1 a b c t ih =>
    have ha := a.toNat_lt; have hb := b.toNat_lt; have hc := c.toNat_lt
    have hp : urlPad ((a :: b :: c :: t).length) = urlPad t.length := by simp [urlPad]; omega
    rw [hp]
    simp only [b64, List.cons_append]
    rw [groupsRaw, if_pos, ih, groupBytes_of url _ _ _ _ (by omega) (by omega) (by omega) (by omega) a b c (by omega)]
    · simp
    · rw [List.count_eq_zero]
      simp only [List.mem_cons, List.not_mem_nil, or_false, not_or]
      exact ⟨(alphabet_ne_pad _ _ (by omega)).symm, (alphabet_ne_pad _ _ (by omega)).symm,
        (alphabet_ne_pad _ _ (by omega)).symm, (alphabet_ne_pad _ _ (by omega)).symm⟩
  | case2 a b =>
    have ha := a.toNat_lt; have hb := b.toNat_lt
    have hp : urlPad ([a, b].length) = 1 := rfl
    rw [hp]
    simp only [b64, List.cons_append, List.nil_append, List.replicate]
    rw [groupsRaw]
    have hc : [alphabet url ((a.toNat * 256 + b.toNat) * 4 / 4096), alphabet url ((a.toNat * 256 + b.toNat) * 4 / 64 % 64),
        alphabet url ((a.toNat * 256 + b.toNat) * 4 % 64), 61].count 61 = 1 := by
      rw [List.count_cons_of_ne (alphabet_ne_pad _ _ (by omega)), List.count_cons_of_ne (alphabet_ne_pad _ _ (by omega)),
        List.count_cons_of_ne (alphabet_ne_pad _ _ (by omega))]; rfl
    simp only [hc]
    have : groupBytes url (alphabet url ((a.toNat * 256 + b.toNat) * 4 / 4096)) (alphabet url ((a.toNat * 256 + b.toNat) * 4 / 64 % 64))
        (alphabet url ((a.toNat * 256 + b.toNat) * 4 % 64)) 61 = [a, b, 0] := by
      simp only [groupBytes, value_pad, Option.getD_none]
      rw [value_alphabet _ _ (by omega), value_alphabet _ _ (by omega), value_alphabet _ _ (by omega)]
      simp only [Option.getD_some, List.cons.injEq, and_true]
      refine ⟨?_, ?_, ?_⟩ <;> apply UInt8.toNat_inj.mp <;> simp only [UInt8.toNat_ofNat', UInt8.toNat_zero] <;> omega
    rw [this]; rfl
  | case3 a =>
    have ha := a.toNat_lt
    have hp : urlPad ([a].length) = 2 := rfl
    rw [hp]
    simp only [b64, List.cons_append, List.nil_append, List.replicate]
    rw [groupsRaw]
    have hc : [alphabet url (a.toNat * 16 / 64), alphabet url (a.toNat * 16 % 64), 61, 61].count 61 = 2 := by
      rw [List.count_cons_of_ne (alphabet_ne_pad _ _ (by omega)), List.count_cons_of_ne (alphabet_ne_pad _ _ (by omega))]
      rfl
    simp only [hc]
    have : groupBytes url (alphabet url (a.toNat * 16 / 64)) (alphabet url (a.toNat * 16 % 64)) 61 61 = [a, 0, 0] := by
      simp only [groupBytes, value_pad, Option.getD_none]
      rw [value_alphabet _ _ (by omega), value_alphabet _ _ (by omega)]
      simp only [Option.getD_some, List.cons.injEq, and_true]
      refine ⟨?_, ?_, ?_⟩ <;> apply UInt8.toNat_inj.mp <;> simp only [UInt8.toNat_ofNat', UInt8.toNat_zero] <;> omega
    rw [this]; rfl
  | case4 => rfl

theorem badCount_text (url : Bool) (d : Bytes) (hd : d ≠ []) : ¬ badCount url (b64Text url d) := by
  have hpos : 0 < d.length := List.length_pos_iff.mpr hd
  unfold badCount
  cases url with
  | true =>
    simp only [b64Text, if_true, filter_b64, b64_length]
    simp; omega
  | false =>
    simp only [b64Text, Bool.false_eq_true, if_false, filter_wrap72, b64Padded, List.filter_append, filter_b64,
      filter_replicate_pad, List.length_append, List.length_replicate, b64_length]
    omega

/-- Specification level round trip. -/
theorem b64Decode_text (url : Bool) (d : Bytes) (hd : d ≠ []) : b64Decode url (b64Text url d) = some d := by
  rw [b64Decode_eq, if_neg (badCount_text url d hd), padded_text, groupsRaw_b64]
  simp

/-- Octets not belonging to the data. -/
theorem groupsRaw_leftover (url : Bool) (r w : Bytes) (k : Nat) (h : groupsRaw url r = some (w, k)) :
    w.drop (w.length - k) = leftoverGroups url r := by
  fun_induction groupsRaw url r generalizing w k with
  | case1 a b c d t p hp ih =>
    cases hg : groupsRaw url t with
    | none => simp [hg] at h
    | some x =>
      simp only [hg, Option.map_some, Option.some.injEq, Prod.mk.injEq] at h
      obtain ⟨rfl, rfl⟩ := h
      rw [leftoverGroups, if_pos hp, ← ih x.1 x.2 (by rw [hg])]
      have hb := groupsRaw_bounds url t x.1 x.2 (by rw [hg])
      simp only [List.length_append, groupBytes_length]
      by_cases ht : t.length ≥ 4
      · have := hb.2.2 ht
        rw [show 3 + x.1.length - x.2 = (groupBytes url a b c d).length + (x.1.length - x.2) by
          rw [groupBytes_length]; omega, List.drop_length_add_append]
      · have hx : x = ([], 0) := by
          have : groupsRaw url t = some ([], 0) := by
            match t, ht with
            | [], _ => rfl
            | [_], _ => rfl
            | [_, _], _ => rfl
            | [_, _, _], _ => rfl
            | a :: b :: c :: d :: t, h => simp at h
          rw [this] at hg; exact (Option.some.inj hg).symm
        subst hx; rfl
  | case2 a b c d t p hp hp2 =>
    simp only [Option.some.injEq, Prod.mk.injEq] at h
    obtain ⟨rfl, rfl⟩ := h
    rw [leftoverGroups, if_neg hp, groupBytes_length]
  | case3 => simp at h
  | case4 r hne =>
    simp only [Option.some.injEq, Prod.mk.injEq] at h
    obtain ⟨rfl, rfl⟩ := h
    match r, hne with
    | [], _ => rfl
    | [_], _ => rfl
    | [_, _], _ => rfl
    | [_, _, _], _ => rfl
    | a :: b :: c :: d :: t, hne => exact absurd rfl (hne a b c d t)

theorem leftover_eq (url : Bool) (t : Bytes) : leftover url t = leftoverGroups url (padded url t) := rfl

end L8w8jwt
