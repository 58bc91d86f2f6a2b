import Verif.Model.Util
import Verif.Spec.Util
import Verif.Proofs.Hoare
/-!
# C08-C10: util.c
-/

namespace L8w8jwt
open Spec

theorem hexVal_eq (charSigned : Bool) (c : UInt8) (v : Nat) (h : hexDigit c = some v) :
    Int.tmod (Int.tmod (charVal charSigned c) 32 + 9) 25 = (v : Int) ∧ v < 16 := by
  have key : ∀ (s : Bool) (j : Fin 256), (hexDigit (UInt8.ofNat j.val)).isSome →
      Int.tmod (Int.tmod (charVal s (UInt8.ofNat j.val)) 32 + 9) 25 = ((hexDigit (UInt8.ofNat j.val)).getD 0 : Int) ∧
      (hexDigit (UInt8.ofNat j.val)).getD 0 < 16 := by decide +kernel
  have := key charSigned ⟨c.toNat, c.toNat_lt⟩
  simp only [UInt8.ofNat_toNat, h] at this
  exact this rfl

theorem laxDigit_eq (charSigned : Bool) (c : UInt8) :
    Int.tmod (Int.tmod (charVal charSigned c) 32 + 9) 25 = laxDigit charSigned c := by
  have key : ∀ (s : Bool) (j : Fin 256), Int.tmod (Int.tmod (charVal s (UInt8.ofNat j.val)) 32 + 9) 25 = laxDigit s (UInt8.ofNat j.val) := by
    decide +kernel
  have := key charSigned ⟨c.toNat, c.toNat_lt⟩
  simpa only [UInt8.ofNat_toNat] using this

theorem hexLoop_lax (charSigned : Bool) (ds : Bytes) : hexLoop charSigned ds = laxHex charSigned ds := by
  fun_induction hexLoop charSigned ds with
  | case1 a b t ih => rw [laxHex, ih, hexPair]; simp only [laxDigit_eq]
  | case2 l hne => rw [laxHex]; exact hne

theorem laxHex_length (cs : Bool) (d : Bytes) : (laxHex cs d).length = d.length / 2 := by
  fun_induction laxHex cs d with
  | case1 a b t ih => simp [ih]; omega
  | case2 l hne =>
    match l, hne with
    | [], _ => rfl
    | [_], _ => simp
    | a :: b :: t, hne => exact absurd rfl (hne a b t)

theorem hexLoop_eq (charSigned : Bool) (ds bs : Bytes) (h : hexBytes ds = some bs) : hexLoop charSigned ds = bs := by
  fun_induction hexBytes ds generalizing bs with
  | case1 => cases h; rfl
  | case2 => cases h
  | case3 a b t x y r hr hy hx ih =>
    cases h
    rw [hexLoop, ih r hr]
    obtain ⟨ha, hxl⟩ := hexVal_eq charSigned a x hx
    obtain ⟨hb, hyl⟩ := hexVal_eq charSigned b y hy
    congr 1
    simp only [hexPair, ha, hb]
    congr 1
    omega
  | case4 => cases h

theorem hexBytes_length (ds bs : Bytes) (h : hexBytes ds = some bs) : ds.length = 2 * bs.length := by
  fun_induction hexBytes ds generalizing bs with
  | case1 => cases h; rfl
  | case2 => cases h
  | case3 a b t x y r hr hy hx ih => cases h; have := ih r hr; simp; omega
  | case4 => cases h

theorem hexDigit_ne_zero (c : UInt8) (v : Nat) (h : hexDigit c = some v) : c ≠ 0 := by
  rintro rfl; simp [hexDigit] at h

theorem hexBytes_digits (ds bs : Bytes) (h : hexBytes ds = some bs) : ∀ c ∈ ds, c ≠ 0 := by
  fun_induction hexBytes ds generalizing bs with
  | case1 => simp
  | case2 => cases h
  | case3 a b t x y r hr hy hx ih =>
    intro c hc
    simp only [List.mem_cons] at hc
    rcases hc with rfl | rfl | hc
    · exact hexDigit_ne_zero _ _ hx
    · exact hexDigit_ne_zero _ _ hy
    · exact ih r hr c hc
  | case4 => cases h

/-- Hexadecimal digits count for what they are. -/
theorem laxHex_eq (charSigned : Bool) (ds bs : Bytes) (h : hexBytes ds = some bs) : laxHex charSigned ds = bs := by
  rw [← hexLoop_lax]; exact hexLoop_eq charSigned ds bs h

/-- The object behind `hexstr`, and how many of its characters count as digits. -/
theorem hex_eff (ds rest : Bytes) (nul : Bool) (hz : ∀ c ∈ ds, c ≠ 0) (hl : ds.length + nul.toNat ≠ 0)
    (hr : nul = true → ∃ r, rest = 0 :: r) :
    ∃ last, rd (ds ++ rest) (ds.length + nul.toNat - 1) = .ok last ∧
      (if last ≠ 0 then ds.length + nul.toNat else ds.length + nul.toNat - 1) = ds.length := by
  cases nul with
  | true =>
    obtain ⟨r, rfl⟩ := hr rfl
    exact ⟨0, by simp [rd], by simp⟩
  | false =>
    simp at hl
    have hlt : ds.length - 1 < ds.length := by
      have := List.length_pos_iff.mpr hl; omega
    refine ⟨ds[ds.length - 1], ?_, ?_⟩
    · simp only [rd, Bool.toNat_false, Nat.add_zero]
      rw [List.getElem?_append_left hlt, List.getElem?_eq_getElem hlt]
    · rw [if_pos (hz _ (List.getElem_mem hlt))]; rfl

/-- **C08** Correctness: for digits denoting `bs`, optionally followed by one NUL counted in the length, and a buffer that
is large enough: return code 0, exactly the bytes and a NUL are written, and the length is reported. (`outSpace`: the real
size of the output object; the call is defined whenever it has the promised `outputSize` bytes.) -/
theorem C08_hex_correct (charSigned : Bool) (ds rest bs : Bytes) (nul lenNull : Bool) (space outputSize : Nat)
    (hd : hexBytes ds = some bs) (hr : nul = true → ∃ r, rest = 0 :: r) (hl : ds.length + nul.toNat ≠ 0)
    (hs : outputSize ≤ space) (ho : bs.length + 1 ≤ outputSize) :
    hexstr2bin charSigned (some (ds ++ rest)) (ds.length + nul.toNat) (some space) outputSize lenNull =
      .ok { rc := 0, written := bs ++ [0], len := if lenNull then none else some bs.length } := by
  have hlen := hexBytes_length ds bs hd
  obtain ⟨last, h1, h2⟩ := hex_eff ds rest nul (hexBytes_digits ds bs hd) hl hr
  simp only [hexstr2bin, hl, if_false, h1, bind, Except.bind, h2]
  rw [if_neg (by omega), if_neg (by omega)]
  simp only [rdN, List.length_append]
  rw [if_pos (by omega)]
  simp only
  rw [List.take_left' rfl, hexLoop_eq charSigned ds bs hd, if_neg (by simp; omega)]
  simp [hlen]

/-- **C08** Bounds: every successful call writes at most `output_size` bytes and `output_length + 1` of them. -/
theorem C08_hex_bounded (charSigned : Bool) (mem : Bytes) (n space outputSize : Nat) (lenNull : Bool) (o : HexOut)
    (h : hexstr2bin charSigned (some mem) n (some space) outputSize lenNull = .ok o) :
    o.written.length ≤ outputSize ∧ (o.rc = 0 → lenNull = false → o.len = some (o.written.length - 1)) := by
  have hlen : ∀ d : Bytes, (hexLoop charSigned d).length = d.length / 2 := by
    intro d
    fun_induction hexLoop charSigned d with
    | case1 a b t ih => simp [ih]; omega
    | case2 l hne =>
      match l, hne with
      | [], _ => rfl
      | [_], _ => simp
      | a :: b :: t, hne => exact absurd rfl (hne a b t)
  simp only [hexstr2bin] at h
  split at h
  · cases h; simp
  · cases hrd : rd mem (n - 1) with
    | error e => simp [hrd, bind, Except.bind] at h
    | ok last =>
      simp only [hrd, bind, Except.bind] at h
      generalize (if last ≠ 0 then n else n - 1) = hl at h
      split at h
      · cases h; simp
      · split at h
        · cases h; simp
        · by_cases hc : hl ≤ mem.length
          · simp only [rdN, hc, if_true] at h
            split at h
            · cases h
            · cases h
              simp only [List.length_append, hlen, List.length_take, List.length_cons, List.length_nil]
              refine ⟨by omega, ?_⟩
              intro _ hln
              simp [hln]; omega
          · simp only [rdN, hc, if_false] at h
            cases h

/-- **C08** An odd number of digits gives 2. -/
theorem C08_hex_odd (charSigned : Bool) (ds rest : Bytes) (nul lenNull : Bool) (space outputSize : Nat)
    (hz : ∀ c ∈ ds, (hexDigit c).isSome) (hodd : ds.length % 2 = 1) (hr : nul = true → ∃ r, rest = 0 :: r) :
    hexstr2bin charSigned (some (ds ++ rest)) (ds.length + nul.toNat) (some space) outputSize lenNull = .ok { rc := 2 } := by
  have hz' : ∀ c ∈ ds, c ≠ 0 := by
    intro c hc
    obtain ⟨v, hv⟩ := Option.isSome_iff_exists.mp (hz c hc)
    exact hexDigit_ne_zero c v hv
  have hl : ds.length + nul.toNat ≠ 0 := by omega
  obtain ⟨last, h1, h2⟩ := hex_eff ds rest nul hz' hl hr
  simp only [hexstr2bin, hl, if_false, h1, bind, Except.bind, h2]
  rw [if_pos (by omega)]

/-- **C08** A buffer without room for the bytes and the NUL gives 3; nothing is written. -/
theorem C08_hex_too_small (charSigned : Bool) (ds rest bs : Bytes) (nul lenNull : Bool) (space outputSize : Nat)
    (hd : hexBytes ds = some bs) (hr : nul = true → ∃ r, rest = 0 :: r) (hl : ds.length + nul.toNat ≠ 0)
    (ho : outputSize < bs.length + 1) :
    hexstr2bin charSigned (some (ds ++ rest)) (ds.length + nul.toNat) (some space) outputSize lenNull = .ok { rc := 3 } := by
  have hlen := hexBytes_length ds bs hd
  obtain ⟨last, h1, h2⟩ := hex_eff ds rest nul (hexBytes_digits ds bs hd) hl hr
  simp only [hexstr2bin, hl, if_false, h1, bind, Except.bind, h2]
  rw [if_neg (by omega), if_pos (by omega)]

/-- **C08** NULL or zero-length arguments give 1. -/
theorem C08_hex_bad_args (charSigned : Bool) (mem : Option Bytes) (n : Nat) (space : Option Nat) (outputSize : Nat)
    (lenNull : Bool) (h : mem = none ∨ space = none ∨ n = 0) :
    hexstr2bin charSigned mem n space outputSize lenNull = .ok { rc := 1 } := by
  rcases h with rfl | rfl | rfl
  · rfl
  · cases mem <;> rfl
  · cases mem <;> cases space <;> rfl

example : hexstr2bin true (some (str "dEadBEeF" ++ [0])) 9 (some 5) 5 false =
    .ok { rc := 0, written := [0xde, 0xad, 0xbe, 0xef, 0], len := some 4 } := by decide
example : hexBytes (str "dEadBEeF") = some [0xde, 0xad, 0xbe, 0xef] := by decide

/-- **C09** is false: `"zz"` is accepted. -/
theorem C09_hex_rejects_false : ¬ ∀ (charSigned : Bool) (mem : Bytes) (space outputSize : Nat) (o : HexOut),
    (∃ c ∈ mem, hexDigit c = none) →
    hexstr2bin charSigned (some mem) mem.length (some space) outputSize false = .ok o → o.rc = 2 := by
  intro hall
  have := hall true (str "zz") 10 10 { rc := 0, written := [0xaa, 0], len := some 1 } ⟨122, by decide, by decide⟩ (by decide)
  exact absurd this (by decide)

/-- **C09** What does hold: code 2 is returned exactly for an odd number of characters (after removing one trailing NUL),
whatever the characters are. Missing: rejection of non-digits. -/
theorem C09_hex_rejects_partial (charSigned : Bool) (mem : Bytes) (n space outputSize : Nat) (lenNull : Bool) (o : HexOut)
    (hn : n ≠ 0) (hm : n ≤ mem.length) (h : hexstr2bin charSigned (some mem) n (some space) outputSize lenNull = .ok o) :
    o.rc = 2 ↔ (if mem[n - 1]? = some 0 then n - 1 else n) % 2 = 1 := by
  have hlt : n - 1 < mem.length := by omega
  have hrd : rd mem (n - 1) = .ok mem[n - 1] := by simp [rd, List.getElem?_eq_getElem hlt]
  simp only [hexstr2bin, hn, if_false, hrd, bind, Except.bind] at h
  rw [List.getElem?_eq_getElem hlt]
  have he : (if mem[n - 1] ≠ 0 then n else n - 1) = if some mem[n - 1] = some 0 then n - 1 else n := by
    by_cases hz : mem[n - 1] = 0 <;> simp [hz]
  rw [he] at h
  generalize (if some mem[n - 1] = some 0 then n - 1 else n) = hl at h
  split at h
  · cases h; simp; omega
  · split at h
    · cases h; simp; omega
    · by_cases hc : hl ≤ mem.length
      · simp only [rdN, hc, if_true] at h
        split at h
        · cases h
        · cases h; simp; omega
      · simp only [rdN, hc, if_false] at h
        cases h

/-- **C09** Exactly what is written for any characters: a trailing NUL is not counted, the number of the others must be even, and
each pair of them stands for a byte (`laxHex`: hexadecimal digits for what they are, other characters by their lowest five bits). -/
theorem C09_hex_exact (charSigned : Bool) (mem : Bytes) (n space outputSize : Nat) (lenNull : Bool)
    (hn : n ≠ 0) (hm : n ≤ mem.length) (hs : outputSize ≤ space) {ds : Bytes}
    (hds : ds = if (mem.take n).getLast? = some 0 then mem.take (n - 1) else mem.take n) :
    hexstr2bin charSigned (some mem) n (some space) outputSize lenNull =
      if ds.length % 2 = 1 then .ok { rc := 2 }
      else if outputSize < ds.length / 2 + 1 then .ok { rc := 3 }
      else .ok { rc := 0, written := laxHex charSigned ds ++ [0], len := if lenNull then none else some (ds.length / 2) } := by
  have hlt : n - 1 < mem.length := by omega
  have hrd : rd mem (n - 1) = .ok mem[n - 1] := by simp [rd, List.getElem?_eq_getElem hlt]
  have hg : (mem.take n).getLast? = some mem[n - 1] := by
    rw [List.getLast?_eq_getElem?, List.length_take, Nat.min_eq_left hm, List.getElem?_take, if_pos (by omega),
      List.getElem?_eq_getElem hlt]
  rw [hg] at hds
  simp only [hexstr2bin, hn, if_false, hrd, bind, Except.bind]
  have he : ∃ hl, (if mem[n - 1] ≠ 0 then n else n - 1) = hl ∧ ds = mem.take hl ∧ hl ≤ mem.length := by
    by_cases hz : mem[n - 1] = 0
    · exact ⟨n - 1, by simp [hz], by rw [hds, if_pos (by rw [hz])], by omega⟩
    · exact ⟨n, by simp [hz], by rw [hds, if_neg (by simpa using hz)], hm⟩
  obtain ⟨hl, h1, rfl, h3⟩ := he
  have hlen : (mem.take hl).length = hl := by rw [List.length_take]; omega
  rw [h1, hlen]
  by_cases h4 : hl % 2 = 1
  · rw [if_pos (by omega), if_pos h4]
  rw [if_neg (by omega), if_neg h4]
  by_cases h5 : outputSize < hl / 2 + 1
  · rw [if_pos h5, if_pos h5]
  rw [if_neg h5, if_neg h5]
  simp only [rdN, h3, if_true, hexLoop_lax]
  rw [if_neg (by simp [laxHex_length, hlen]; omega)]

example : hexstr2bin true (some (str "~" ++ [0xff, 0])) 3 (some 2) 2 false = .ok { rc := 0, written := [0xe8, 0], len := some 1 } ∧
    hexstr2bin false (some (str "~" ++ [0xff, 0])) 3 (some 2) 2 false = .ok { rc := 0, written := [0xef, 0], len := some 1 } := by
  decide
example : hexstr2bin true (some (str "zz!")) 3 (some 9) 9 false = .ok { rc := 2 } := by decide

theorem tolower_ascii (charSigned : Bool) (a : UInt8) (ha : charSigned = true → a < 128) :
    tolower (charVal charSigned a) = .ok ((lower a).toNat : Int) := by
  have key : ∀ (s : Bool) (j : Fin 256), (s = true → UInt8.ofNat j.val < 128) →
      tolower (charVal s (UInt8.ofNat j.val)) = .ok ((lower (UInt8.ofNat j.val)).toNat : Int) := by decide +kernel
  have := key charSigned ⟨a.toNat, a.toNat_lt⟩
  simp only [UInt8.ofNat_toNat] at this
  exact this ha

theorem cString_cons (a : UInt8) (s : Bytes) : cString (a :: s) = if a = 0 then [] else a :: cString s := by
  simp only [cString, List.takeWhile_cons]
  by_cases h : a = 0 <;> simp [h]

theorem lower_zero (a : UInt8) (h : lower a = 0) : a = 0 := by
  have key : ∀ j : Fin 256, lower (UInt8.ofNat j.val) = 0 → UInt8.ofNat j.val = 0 := by decide +kernel
  have := key ⟨a.toNat, a.toNat_lt⟩
  simp only [UInt8.ofNat_toNat] at this
  exact this h

/-- What `tolower` returns for a `char`: for `(char)0xff` = `EOF` it is -1 where `char` is signed. -/
def lowVal (charSigned : Bool) (a : UInt8) : Int := if charSigned = true ∧ a = 255 then -1 else ((lower a).toNat : Int)

theorem tolower_val (charSigned : Bool) (a : UInt8) (ha : ¬ (charSigned = true ∧ 128 ≤ a ∧ a ≠ 255)) :
    tolower (charVal charSigned a) = .ok (lowVal charSigned a) := by
  have key : ∀ (s : Bool) (j : Fin 256), ¬ (s = true ∧ 128 ≤ UInt8.ofNat j.val ∧ UInt8.ofNat j.val ≠ 255) →
      tolower (charVal s (UInt8.ofNat j.val)) = .ok (lowVal s (UInt8.ofNat j.val)) := by decide +kernel
  have := key charSigned ⟨a.toNat, a.toNat_lt⟩
  simp only [UInt8.ofNat_toNat] at this
  exact this ha

theorem tolower_high (a : UInt8) (ha : 128 ≤ a) (ha' : a ≠ 255) : tolower (charVal true a) = .error .badCtype := by
  have key : ∀ (j : Fin 256), 128 ≤ UInt8.ofNat j.val → UInt8.ofNat j.val ≠ 255 →
      tolower (charVal true (UInt8.ofNat j.val)) = .error .badCtype := by decide +kernel
  have := key ⟨a.toNat, a.toNat_lt⟩
  simp only [UInt8.ofNat_toNat] at this
  exact this ha ha'

theorem lower_255 (a : UInt8) : lower a = 255 ↔ a = 255 := by
  have key : ∀ j : Fin 256, lower (UInt8.ofNat j.val) = 255 ↔ UInt8.ofNat j.val = 255 := by decide +kernel
  have := key ⟨a.toNat, a.toNat_lt⟩
  simpa only [UInt8.ofNat_toNat] using this

theorem lowVal_eq (charSigned : Bool) (a b : UInt8) : lowVal charSigned a - lowVal charSigned b = 0 ↔ lower a = lower b := by
  have hn : ((lower a).toNat : Int) - ((lower b).toNat : Int) = 0 ↔ lower a = lower b := by
    constructor
    · intro h; apply UInt8.toNat_inj.mp; omega
    · intro h; rw [h]; omega
  unfold lowVal
  by_cases h1 : charSigned = true ∧ a = 255
  · rw [if_pos h1, h1.2, (lower_255 255).mpr rfl]
    by_cases h2 : charSigned = true ∧ b = 255
    · rw [if_pos h2, h2.2]; decide
    · rw [if_neg h2]
      constructor
      · intro h; omega
      · intro h; exact absurd ⟨h1.1, (lower_255 b).mp h.symm⟩ h2
  · rw [if_neg h1]
    by_cases h2 : charSigned = true ∧ b = 255
    · rw [if_pos h2, h2.2, (lower_255 255).mpr rfl]
      constructor
      · intro h; omega
      · intro h; exact absurd ⟨h2.1, (lower_255 a).mp h⟩ h1
    · rw [if_neg h2]; exact hn

theorem reaches_head {x y : UInt8} {s t : Bytes} {k : Nat} (h : (x ≠ 0 ∧ 128 ≤ x ∧ x ≠ 255) ∨ (y ≠ 0 ∧ 128 ≤ y ∧ y ≠ 255)) :
    ReachesHigh (cString (x :: s)) (cString (y :: t)) (k + 1) := by
  rcases h with ⟨h0, h1, h2⟩ | ⟨h0, h1, h2⟩
  · exact ⟨0, x, by omega, by simp, Or.inl (by rw [cString_cons, if_neg h0]; rfl), h1, h2⟩
  · exact ⟨0, y, by omega, by simp, Or.inr (by rw [cString_cons, if_neg h0]; rfl), h1, h2⟩

theorem reaches_tail {x y : UInt8} {s t : Bytes} {k : Nat} (hx : x ≠ 0) (hy : y ≠ 0) (hxy : lower x = lower y)
    (h : ReachesHigh (cString s) (cString t) k) : ReachesHigh (cString (x :: s)) (cString (y :: t)) (k + 1) := by
  obtain ⟨i, c, h1, h2, h3, h4⟩ := h
  refine ⟨i + 1, c, by omega, ?_, ?_, h4⟩
  · rw [cString_cons, cString_cons, if_neg hx, if_neg hy]
    simp [hxy, h2]
  · rw [cString_cons, cString_cons, if_neg hx, if_neg hy]
    simpa using h3

theorem high_ne_zero {x : UInt8} (h : 128 ≤ x) : x ≠ 0 := by
  rintro rfl; exact absurd h (by decide)

theorem strncmpicLoop_spec (charSigned : Bool) (a b : Bytes) (n : Nat) (ret : Int) (ha : 0 ∈ a) (hb : 0 ∈ b)
    (hs : ¬ (charSigned = true ∧ ReachesHigh (cString a) (cString b) n)) :
    ∃ r, strncmpicLoop charSigned a b n ret = .ok r ∧
      (r = 0 ↔ equalIgnoreCase a b n ∧ ((n = 0 ∨ (cString a = [] ∧ cString b = [])) → ret = 0)) := by
  induction a generalizing b n ret with
  | nil => simp at ha
  | cons x s ih =>
    cases b with
    | nil => simp at hb
    | cons y t =>
      unfold equalIgnoreCase
      by_cases hz : x = 0 ∧ y = 0
      · refine ⟨ret, by simp [strncmpicLoop, hz], ?_⟩
        simp [cString_cons, hz]
      · cases n with
        | zero =>
          refine ⟨ret, by simp [strncmpicLoop, hz], by simp⟩
        | succ k =>
          have hxe := tolower_val charSigned x (fun h => hs ⟨h.1, reaches_head (Or.inl ⟨high_ne_zero h.2.1, h.2⟩)⟩)
          have hye := tolower_val charSigned y (fun h => hs ⟨h.1, reaches_head (Or.inr ⟨high_ne_zero h.2.1, h.2⟩)⟩)
          by_cases hxy : lower x = lower y
          · -- equal characters: neither is NUL
            have hx0 : x ≠ 0 := by
              intro h0; subst h0
              exact hz ⟨rfl, lower_zero y (by rw [← hxy]; decide)⟩
            have hy0 : y ≠ 0 := by
              intro h0; subst h0
              exact hz ⟨lower_zero x (by rw [hxy]; decide), rfl⟩
            obtain ⟨r, hr, hrs⟩ := ih t k 0 (by simpa [Ne.symm hx0] using ha) (by simpa [Ne.symm hy0] using hb)
              (fun h => hs ⟨h.1, reaches_tail hx0 hy0 hxy h.2⟩)
            refine ⟨r, ?_, ?_⟩
            · simp only [strncmpicLoop, hz, if_false, hxe, hye, bind, Except.bind]
              have h0 := (lowVal_eq charSigned x y).mpr hxy
              rw [if_neg (not_not_intro h0), h0]
              exact hr
            · rw [hrs]
              simp [cString_cons, hx0, hy0, hxy, equalIgnoreCase]
          · refine ⟨lowVal charSigned x - lowVal charSigned y, ?_, ?_⟩
            · simp only [strncmpicLoop, hz, if_false, hxe, hye, bind, Except.bind]
              rw [if_pos (fun h => hxy ((lowVal_eq charSigned x y).mp h))]
            · rw [lowVal_eq]
              constructor
              · intro h; exact absurd h hxy
              · rintro ⟨h, -⟩
                exfalso
                rw [cString_cons, cString_cons] at h
                by_cases hx0 : x = 0
                · by_cases hy0 : y = 0
                  · exact hz ⟨hx0, hy0⟩
                  · simp [hx0, hy0] at h
                · by_cases hy0 : y = 0
                  · simp [hx0, hy0] at h
                  · simp [hx0, hy0] at h
                    exact hxy h.1

theorem strncmpicLoop_high (a b : Bytes) (n : Nat) (ret : Int) (ha : 0 ∈ a) (hb : 0 ∈ b)
    (h : ReachesHigh (cString a) (cString b) n) : strncmpicLoop true a b n ret = .error .badCtype := by
  induction a generalizing b n ret with
  | nil => simp at ha
  | cons x s ih =>
    cases b with
    | nil => simp at hb
    | cons y t =>
      obtain ⟨i, c, h1, h2, h3, h4⟩ := h
      by_cases hz : x = 0 ∧ y = 0
      · simp [cString_cons, hz] at h3
      obtain ⟨k, rfl⟩ : ∃ k, n = k + 1 := ⟨n - 1, by omega⟩
      simp only [strncmpicLoop, hz, if_false]
      by_cases hx : 128 ≤ x ∧ x ≠ 255
      · rw [tolower_high x hx.1 hx.2]; rfl
      rw [tolower_val true x (fun h => hx h.2)]
      by_cases hy : 128 ≤ y ∧ y ≠ 255
      · rw [tolower_high y hy.1 hy.2]; rfl
      rw [tolower_val true y (fun h => hy h.2)]
      simp only [bind, Except.bind]
      cases i with
      | zero =>
        exfalso
        rcases h3 with h3 | h3
        · rw [cString_cons] at h3
          split at h3
          · simp at h3
          · simp at h3; subst h3; exact hx h4
        · rw [cString_cons] at h3
          split at h3
          · simp at h3
          · simp at h3; subst h3; exact hy h4
      | succ i =>
        rw [cString_cons, cString_cons] at h2 h3
        by_cases hx0 : x = 0
        · by_cases hy0 : y = 0
          · exact absurd ⟨hx0, hy0⟩ hz
          · simp [hx0, hy0] at h2
        · by_cases hy0 : y = 0
          · simp [hx0, hy0] at h2
          · simp only [hx0, hy0, if_false, List.take_succ_cons, List.map_cons, List.cons.injEq, List.getElem?_cons_succ] at h2 h3
            have h0 := (lowVal_eq true x y).mpr h2.1
            rw [if_neg (not_not_intro h0)]
            exact ih t k _ (by simpa [Ne.symm hx0] using ha) (by simpa [Ne.symm hy0] using hb) ⟨i, c, by omega, h2.2, h3, h4⟩

/-- **C10** as stated is false: two empty strings compare as different (the result is -1). -/
theorem C10_strncmpic_false : ¬ ∀ (charSigned : Bool) (a b : Bytes) (n : Nat) (r : Int), 0 ∈ a → 0 ∈ b →
    strncmpic charSigned (some a) (some b) n = .ok r → (r = 0 ↔ equalIgnoreCase a b n) := by
  intro hall
  have := (hall true [0] [0] 5 (-1) (by decide) (by decide) (by decide)).mpr rfl
  exact absurd this (by decide)

/-- **C10** What holds: for C strings the call is defined unless `char` is signed and the comparison comes to a byte from 128
to 254 (`C10_strncmpic_defined`), and it returns 0 if and only if the strings agree up to case *and* at least one character is
compared (`n ≠ 0` and the strings are not both empty; there the code returns -1). Missing: these corner cases. -/
theorem C10_strncmpic_partial (charSigned : Bool) (a b : Bytes) (n : Nat) (ha : 0 ∈ a) (hb : 0 ∈ b)
    (hs : ¬ (charSigned = true ∧ ReachesHigh (cString a) (cString b) n)) :
    ∃ r, strncmpic charSigned (some a) (some b) n = .ok r ∧
      (r = 0 ↔ equalIgnoreCase a b n ∧ n ≠ 0 ∧ ¬ (cString a = [] ∧ cString b = [])) := by
  obtain ⟨r, h1, h2⟩ := strncmpicLoop_spec charSigned a b n (-1) ha hb hs
  refine ⟨r, h1, ?_⟩
  rw [h2]
  constructor
  · rintro ⟨h, h'⟩
    refine ⟨h, ?_, ?_⟩
    · intro h0; exact absurd (h' (Or.inl h0)) (by decide)
    · intro h0; exact absurd (h' (Or.inr h0)) (by decide)
  · rintro ⟨h, hn, he⟩
    refine ⟨h, ?_⟩
    rintro (h0 | h0)
    · exact absurd h0 hn
    · exact absurd h0 he

/-- **C10** When the call is defined, for C strings: exactly unless `char` is signed and the comparison comes to a byte from
128 to 254. -/
theorem C10_strncmpic_defined (charSigned : Bool) (a b : Bytes) (n : Nat) (ha : 0 ∈ a) (hb : 0 ∈ b) :
    (∃ r, strncmpic charSigned (some a) (some b) n = .ok r) ↔ ¬ (charSigned = true ∧ ReachesHigh (cString a) (cString b) n) := by
  constructor
  · rintro ⟨r, hr⟩ ⟨rfl, h⟩
    simp only [strncmpic] at hr
    rw [strncmpicLoop_high a b n _ ha hb h] at hr
    cases hr
  · intro h
    obtain ⟨r, hr, -⟩ := C10_strncmpic_partial charSigned a b n ha hb h
    exact ⟨r, hr⟩

example : strncmpic true (some [65, 255, 0]) (some [97, 255, 0xe9, 0]) 2 = .ok 0 := by decide
example : strncmpic true (some [65, 0xe9, 0]) (some [97, 0xe9, 0]) 1 = .ok 0 := by decide
example : strncmpic true (some (str "JWT" ++ [0])) (some (str "jwtX" ++ [0])) 3 = .ok 0 := by decide
example : strncmpic true (some [0xe9, 0]) (some [0xe9, 0]) 1 = .error .badCtype := by decide

end L8w8jwt
