import Verif.C.KeygenRun
/-!
# C87: examples/eddsa/keygen.c
-/

namespace L8w8jwt

namespace Spec

/-- The factor a byte of the seed is multiplied with: the product of every sixteenth byte of the hash. -/
def keyFactor (h : Bytes) (j : Nat) : UInt8 := h.getD j 0 * h.getD (j + 16) 0 * h.getD (j + 32) 0 * h.getD (j + 48) 0

/-- The random numbers `r` and the hash `h` of the arguments, mixed. -/
def keySeed (r h : Bytes) : Bytes := (List.range 32).map (fun j => if j < 16 then r.getD j 0 * keyFactor h j else r.getD j 0)

end Spec

namespace C

open Spec

/-- What the first `i` steps multiply byte `j` with. -/
def stepFactor (h : Bytes) (j : Nat) : Nat → UInt8
  | 0 => 1
  | i + 1 => if i % 16 = j then stepFactor h j i * h.getD i 0 else stepFactor h j i

theorem mixSteps_get (r h : Bytes) (hr : r.length = 32) (j : Nat) (hj : j < 32) (i : Nat) : (mixSteps r h i).getD j 0 = r.getD j 0 * stepFactor h j i := by
  induction i with
  | zero => simp [mixSteps, stepFactor]
  | succ i ih =>
    have hl := mixSteps_length r h i
    simp only [mixSteps, stepFactor]
    by_cases hi : i % 16 = j
    · subst hi
      rw [getD_set_same _ _ _ _ (by omega), ih, if_pos rfl, UInt8.mul_assoc]
    · rw [getD_set_ne _ _ _ _ _ hi, ih, if_neg hi]

theorem stepFactor_all (h : Bytes) (j : Nat) : stepFactor h j 64 = if j < 16 then keyFactor h j else 1 := by
  by_cases hj : j < 16
  · rw [if_pos hj]
    have : j = 0 ∨ j = 1 ∨ j = 2 ∨ j = 3 ∨ j = 4 ∨ j = 5 ∨ j = 6 ∨ j = 7 ∨ j = 8 ∨ j = 9 ∨ j = 10 ∨ j = 11 ∨ j = 12 ∨ j = 13 ∨ j = 14 ∨ j = 15 := by omega
    rcases this with rfl | rfl | rfl | rfl | rfl | rfl | rfl | rfl | rfl | rfl | rfl | rfl | rfl | rfl | rfl | rfl <;>
      simp [stepFactor, keyFactor]
  · rw [if_neg hj]
    have : ∀ n, stepFactor h j n = 1 := by
      intro n
      induction n with
      | zero => rfl
      | succ n ih => rw [stepFactor, if_neg (by omega), ih]
    exact this 64

theorem mixSteps_eq (r h : Bytes) (hr : r.length = 32) : mixSteps r h 64 = keySeed r h := by
  apply List.ext_getElem?
  intro j
  have hl := mixSteps_length r h 64
  by_cases hj : j < 32
  · have := mixSteps_get r h hr j hj 64
    rw [stepFactor_all, List.getD_eq_getElem?_getD, List.getElem?_eq_getElem (by omega)] at this
    rw [List.getElem?_eq_getElem (by omega)]
    simp only [keySeed, List.getElem?_map, List.getElem?_range hj, Option.map_some]
    simp only [Option.getD_some] at this
    rw [this]
    split <;> simp
  · rw [List.getElem?_eq_none (by omega), List.getElem?_eq_none (by simp [keySeed]; omega)]

/-- The seed the program uses. -/
def usedSeed (k : KeyLib) (args : List Bytes) : Bytes := if args.length ≤ 1 then k.start else keySeed k.start (k.sha512 args.flatten)

/-- **C87**: what the program prints. -/
theorem C87_keygen (env : Env) {k : KeyLib} {fuel : Nat} {args : List Bytes} (s : Sched) (hk : k.Sized) (hnul : ∀ a ∈ args, 0 ∉ a) (hn : args.length < 2147483648)
    (hf : args.length < fuel) (hf' : 64 < fuel) :
    ∃ st, runKeygen env k fuel args s = .ok (.undef, st) ∧ st.printed = some (keyText (k.publicKey (usedSeed k args)) (k.privateKey (usedSeed k args))) := by
  obtain ⟨st, e, h⟩ := keygen_run (env := env) (s := s) hk hnul hn hf hf'
  refine ⟨st, e, ?_⟩
  rw [h]
  simp only [usedSeed, mixSteps_eq _ _ hk.start]

theorem mul_parity (x y : UInt8) : (x * y).toNat % 2 = (x.toNat % 2) * (y.toNat % 2) := by
  rw [UInt8.toNat_mul]
  have : x.toNat * y.toNat % 256 % 2 = x.toNat * y.toNat % 2 := by omega
  rw [show (2 : Nat) ^ 8 = 256 from rfl, this, Nat.mul_mod]
  rcases Nat.mod_two_eq_zero_or_one x.toNat with h | h <;> rcases Nat.mod_two_eq_zero_or_one y.toNat with h' | h' <;> simp [h, h']

theorem keyFactor_odd (h : Bytes) (j : Nat) : (keyFactor h j).toNat % 2 = 1 ↔
    (h.getD j 0).toNat % 2 = 1 ∧ (h.getD (j + 16) 0).toNat % 2 = 1 ∧ (h.getD (j + 32) 0).toNat % 2 = 1 ∧ (h.getD (j + 48) 0).toNat % 2 = 1 := by
  unfold keyFactor
  simp only [mul_parity]
  rcases Nat.mod_two_eq_zero_or_one (h.getD j 0).toNat with h0 | h0 <;> rcases Nat.mod_two_eq_zero_or_one (h.getD (j + 16) 0).toNat with h1 | h1 <;>
    rcases Nat.mod_two_eq_zero_or_one (h.getD (j + 32) 0).toNat with h2 | h2 <;> rcases Nat.mod_two_eq_zero_or_one (h.getD (j + 48) 0).toNat with h3 | h3 <;>
    rw [h0, h1, h2, h3] <;> decide

theorem inverse_nat : ∀ c : Fin 256, c.val % 2 = 1 → c.val * (c.val ^ 63 % 256) % 256 = 1 := by decide +kernel

theorem odd_cancel {x y c : UInt8} (hc : c.toNat % 2 = 1) (h : x * c = y * c) : x = y := by
  have hd : c * UInt8.ofNat (c.toNat ^ 63 % 256) = 1 := by
    have := inverse_nat ⟨c.toNat, c.toNat_lt⟩ hc
    apply UInt8.toNat_inj.mp
    rw [UInt8.toNat_mul, UInt8.toNat_ofNat']
    simpa using this
  have := congrArg (· * UInt8.ofNat (c.toNat ^ 63 % 256)) h
  simpa only [UInt8.mul_assoc, hd, UInt8.mul_one] using this

theorem even_kills {c : UInt8} (hc : ¬ c.toNat % 2 = 1) : (128 : UInt8) * c = 0 := by
  apply UInt8.toNat_inj.mp
  rw [UInt8.toNat_mul]
  show 128 * c.toNat % 256 = 0
  omega

theorem keySeed_get {r h : Bytes} {j : Nat} (hj : j < 32) : (keySeed r h).getD j 0 = if j < 16 then r.getD j 0 * keyFactor h j else r.getD j 0 := by
  simp [keySeed, List.getD_eq_getElem?_getD, List.getElem?_range hj]

theorem zeros_get (n j : Nat) : (List.replicate n (0 : UInt8)).getD j 0 = 0 := by
  rw [List.getD_eq_getElem?_getD, List.getElem?_replicate]
  split <;> rfl

/-- **C87**, negation: with arguments, the seed depends on all of the random numbers only if all 64 bytes of the hash are odd. -/
theorem C87_arguments_false (h : Bytes) (hl : h.length = 64) :
    (∀ r r' : Bytes, r.length = 32 → r'.length = 32 → keySeed r h = keySeed r' h → r = r') ↔ ∀ b ∈ h, b.toNat % 2 = 1 := by
  constructor
  · intro H
    have hf : ∀ j, j < 16 → (keyFactor h j).toNat % 2 = 1 := by
      intro j hj
      refine Classical.byContradiction fun hc => ?_
      have := H (List.replicate 32 0) ((List.replicate 32 0).set j 128) (by simp) (by simp) (by
        apply List.map_congr_left
        intro i hi
        have hi := List.mem_range.mp hi
        by_cases hij : j = i
        · subst hij
          rw [if_pos hj, if_pos hj, getD_set_same _ _ _ _ (by simp; omega), even_kills hc]
          rw [zeros_get, UInt8.zero_mul]
        · rw [getD_set_ne _ _ _ _ _ hij])
      have := congrArg (fun l => l.getD j 0) this
      rw [zeros_get, getD_set_same _ _ _ _ (by simp; omega)] at this
      exact absurd this (by decide)
    intro b hb
    obtain ⟨i, hi, rfl⟩ := List.getElem_of_mem hb
    obtain ⟨h0, h1, h2, h3⟩ := (keyFactor_odd h (i % 16)).mp (hf _ (by omega))
    have hg : h[i] = h.getD i 0 := by simp [List.getD_eq_getElem?_getD, hi]
    rw [hg]
    have : i = i % 16 ∨ i = i % 16 + 16 ∨ i = i % 16 + 32 ∨ i = i % 16 + 48 := by omega
    rcases this with e | e | e | e <;> rw [e] <;> assumption
  · intro hodd r r' hr hr' e
    apply List.ext_getElem?
    intro j
    by_cases hj : j < 32
    · have := congrArg (fun l => l.getD j 0) e
      simp only [keySeed_get hj] at this
      have g : r.getD j 0 = r'.getD j 0 := by
        by_cases h16 : j < 16
        · rw [if_pos h16, if_pos h16] at this
          have o : ∀ m, m < 64 → (h.getD m 0).toNat % 2 = 1 := by
            intro m hm
            rw [List.getD_eq_getElem?_getD, List.getElem?_eq_getElem (by omega)]
            exact hodd _ (List.getElem_mem _)
          exact odd_cancel ((keyFactor_odd h j).mpr ⟨o _ (by omega), o _ (by omega), o _ (by omega), o _ (by omega)⟩) this
        · rwa [if_neg h16, if_neg h16] at this
      rw [List.getD_eq_getElem?_getD, List.getD_eq_getElem?_getD, List.getElem?_eq_getElem (by omega), List.getElem?_eq_getElem (by omega)] at g
      rw [List.getElem?_eq_getElem (by omega), List.getElem?_eq_getElem (by omega)]
      exact congrArg some g
    · rw [List.getElem?_eq_none (by omega), List.getElem?_eq_none (by omega)]

/-- **C87**, negation: where the product is a multiple of 256, the byte is zero whatever was drawn. -/
theorem C87_byte_false {r h : Bytes} {j : Nat} (hj : j < 16) (h0 : keyFactor h j = 0) : (keySeed r h).getD j 0 = 0 := by
  rw [keySeed_get (by omega), if_pos hj, h0]
  simp

/-- **C87**, negation: when `ed25519_create_seed` fails, a key is printed all the same, and it depends on the arguments only. -/
theorem C87_no_random_false (env : Env) {k : KeyLib} {fuel : Nat} {args : List Bytes} (s : Sched) (hk : k.Sized) (hr : k.random = none) (hnul : ∀ a ∈ args, 0 ∉ a)
    (hn : args.length < 2147483648) (hf : args.length < fuel) (hf' : 64 < fuel) :
    ∃ st, runKeygen env k fuel args s = .ok (.undef, st) ∧
      st.printed = some (keyText (k.publicKey (List.replicate 32 0)) (k.privateKey (List.replicate 32 0))) := by
  obtain ⟨st, e, h⟩ := C87_keygen env s hk hnul hn hf hf'
  refine ⟨st, e, ?_⟩
  have hs : k.start = List.replicate 32 0 := by simp [KeyLib.start, hr]
  have hu : usedSeed k args = List.replicate 32 0 := by
    unfold usedSeed
    rw [hs]
    split
    · rfl
    · apply List.ext_getElem?
      intro j
      by_cases hj : j < 32
      · simp only [keySeed, List.getElem?_map, List.getElem?_range hj, List.getElem?_replicate, List.getD_eq_getElem?_getD, hj, if_true, Option.map_some, Option.getD_some, UInt8.zero_mul]
        simp
      · simp [keySeed, hj]
  rw [h, hu]

/-- A library for the examples below: the first random byte is `b`, and the "hash" is the text itself. -/
def toyKeys (b : UInt8) : KeyLib where
  random := some (b :: List.replicate 31 7)
  sha512 m := (m ++ List.replicate 64 3).take 64
  publicKey m := (m ++ List.replicate 32 0).take 32
  privateKey m := (m ++ m ++ List.replicate 64 0).take 64

theorem toyKeys_sized (b : UInt8) : (toyKeys b).Sized where
  random r hr := by cases hr; rfl
  sha512 m := by simp [toyKeys]
  publicKey m := by simp [toyKeys]
  privateKey m := by simp [toyKeys]; omega

/-- Without arguments the first byte is the one drawn, 200 = c8. -/
example : ∃ st, runKeygen toy (toyKeys 200) 100 [str "keygen"] calm = .ok (.undef, st) ∧
    (st.printed.map (fun t => (t.drop 45).take 8)) = some (str "c8070707") := by
  obtain ⟨st, e, h⟩ := C87_keygen toy calm (toyKeys_sized 200) (args := [str "keygen"]) (fuel := 100) (by decide) (by decide) (by decide) (by decide)
  exact ⟨st, e, by rw [h]; decide +kernel⟩

/-- With the arguments "keygen" and "@" (64) the first byte is 200 · 107 · 3 · 3 · 3, and the seventh has lost six of its eight bits. -/
example : ∃ st, runKeygen toy (toyKeys 200) 100 [str "keygen", str "@"] calm = .ok (.undef, st) ∧
    (st.printed.map (fun t => (t.drop 45).take 14)) = some (str "0891550b913640") := by
  obtain ⟨st, e, h⟩ := C87_keygen toy calm (toyKeys_sized 200) (args := [str "keygen", str "@"]) (fuel := 100) (by decide) (by decide) (by decide) (by decide)
  exact ⟨st, e, by rw [h]; decide +kernel⟩

/-- An even byte in the hash: two different random numbers, one key. -/
example : keySeed (List.replicate 32 1) (2 :: List.replicate 63 1) = keySeed (129 :: List.replicate 31 1) (2 :: List.replicate 63 1) := by decide +kernel

end C
end L8w8jwt
