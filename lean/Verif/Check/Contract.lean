import Verif.Check.Pk
import Verif.Spec.Encode
/-!
# The contract `CryptoOk` holds for real primitives

The theorems about the model assume the contract `CryptoOk` about mbedTLS and ed25519. It is satisfied by the implementations in
`Verif/Check/Pk.lean`, so these theorems are about more than toy primitives.
-/

namespace L8w8jwt.Check
open Spec

theorem strict_eq {α : Type} (n : Nat) (f : Nat → α) : strict n f = f n := by cases n <;> rfl

theorem natBe_length (n x : Nat) : (natBe n x).length = n := by
  induction n generalizing x with
  | zero => rfl
  | succ n ih => simp [natBe, ih]

theorem round_length (c : Sha) (st : List Nat) (k w : Nat) (h : st.length = 8) : (c.round st k w).length = 8 := by
  unfold Sha.round
  split
  · simp [strict_eq]
  · exact h

theorem rounds_length (c : Sha) (ks ws st : List Nat) (h : st.length = 8) : (c.rounds ks ws st).length = 8 := by
  induction ks generalizing ws st with
  | nil => exact h
  | cons k ks ih =>
    cases ws with
    | nil => exact h
    | cons w ws => simp only [Sha.rounds, strict_eq]; exact ih _ _ (round_length c st k w h)

theorem addWords_length (w : Nat) (xs ys : List Nat) (h : xs.length = ys.length) : (addWords w xs ys).length = xs.length := by
  induction xs generalizing ys with
  | nil => rfl
  | cons x xs ih =>
    cases ys with
    | nil => simp at h
    | cons y ys => simp only [addWords, strict_eq, List.length_cons] at h ⊢; rw [ih ys (by omega)]

theorem blocks_length (c : Sha) (n : Nat) (bs : Bytes) (st : List Nat) (h : st.length = 8) : (c.blocks n bs st).length = 8 := by
  induction n generalizing bs st with
  | zero => exact h
  | succ n ih =>
    refine ih _ _ ?_
    rw [addWords_length _ _ _ (by rw [rounds_length c _ _ _ h, h]), h]

theorem flatMap_natBe_length (k : Nat) (l : List Nat) : (l.flatMap (natBe k)).length = l.length * k := by
  induction l with
  | nil => simp
  | cons x l ih => simp [natBe_length, ih, Nat.succ_mul]; omega

theorem hash_length (c : Sha) (m : Bytes) (h : c.h0.length = 8) : (c.hash m).length = 8 * (c.w / 8) := by
  simp only [Sha.hash]
  rw [flatMap_natBe_length, blocks_length c _ _ _ h]

/-- Digests have the length of the standard. -/
theorem sha_length (md : Md) (m : Bytes) : (sha md m).length = md.len := by
  cases md
  · exact hash_length sha256 m rfl
  · have := hash_length sha384 m rfl
    simp only [sha, Md.len, List.length_take]
    rw [this]; rfl
  · exact hash_length sha512 m rfl

theorem hmac_length (md : Md) (k m : Bytes) : (hmac md k m).length = md.len := sha_length _ _

/-- The contract of `Verif/Spec/Encode.lean` is not special to toy primitives. -/
theorem realOk : CryptoOk realCrypto where
  hmac md k m t h := by simp only [realCrypto, Option.some.injEq] at h; subst h; exact hmac_length _ _ _
  md md m t h := by simp only [realCrypto, Option.some.injEq] at h; subst h; exact sha_length _ _
  sign pk md m t h := by
    revert h
    match (pk : Pk) with
    | .rsa n e (some d) hs =>
      intro h e
      obtain rfl := Option.some.inj h
      have := congrArg List.length e
      rw [natBe_length] at this
      simp [Pk.bits] at this
      omega
    | .rsa n e none hs => intro h; cases h
    | .ec c d q => intro h; cases h
  ed m k := by simp only [realCrypto, edSign, Ed.compress, natLe, List.length_append, List.length_reverse, natBe_length]
  pss pk md m t h := by
    revert h
    match (pk : Pk) with
    | .rsa n e (some d) hs =>
      intro h
      obtain rfl := Option.some.inj h
      exact natBe_length _ _
    | .rsa n e none hs => intro h; cases h
    | .ec c d q => intro h; cases h
  rsaLen pk h := by
    cases pk with
    | rsa n e d hs => exact ⟨rfl, by simp only [realCrypto, Pk.bits]; omega⟩
    | ec => simp [realCrypto, Pk.isRsa] at h
  canPss pk h := h
  canEcdsa pk h := h

end L8w8jwt.Check
