import Verif.Spec.Resource
import Verif.Proofs.Toy
/-!
# C55: key copies are wiped and mbedTLS objects are released
-/

namespace L8w8jwt
open Spec

/-- Running two sequences one after the other. -/
theorem run_append (s : ResState) (a b : List Ev) : s.run (a ++ b) = (s.run a).bind fun t => t.run b := by
  induction a generalizing s with
  | nil => rfl
  | cons e a ih =>
    simp only [List.cons_append, ResState.run]
    cases s.step e with
    | none => rfl
    | some t => simp only [Option.bind_some]; exact ih t

/-- Closed sequences can be checked by evaluation. -/
def tidyB (evs : List Ev) : Bool :=
  match ResState.start.run evs with
  | none => false
  | some s => [Obj.pk, .entropy, .drbg, .ecdsa, .sigR, .sigS, .crt].all (fun o => s.obj o != .full) && !s.key && !s.ed

theorem tidy_iff (evs : List Ev) : Tidy evs ↔ tidyB evs = true := by
  unfold Tidy tidyB
  constructor
  · rintro ⟨s, hs, ho, hk, he⟩
    rw [hs]
    simp [ho, hk, he]
  · intro h
    cases hs : ResState.start.run evs with
    | none => rw [hs] at h; cases h
    | some s =>
      rw [hs] at h
      simp at h
      refine ⟨s, rfl, ?_, h.1.2, h.2⟩
      intro o
      cases o <;> simp [h]

/-- **C55**, encoder: whatever the parameters and whatever the crypto library answers, `write_signature` uses no object before it is
initialised or after it is released, releases everything it filled exactly once, and leaves no copy of the key behind. -/
theorem C55_sign_tidy (env : Env) (p : EncParams) (msg : Bytes) : Tidy (writeSignatureEvents env p msg).1 := by
  rw [tidy_iff]
  unfold writeSignatureEvents
  cases loadKey p.secretKey p.secretKeyLength with
  | error _ => rfl
  | ok kn =>
    obtain ⟨key, n⟩ := kn
    simp only
    unfold signEvents
    simp only
    split
    · decide
    split
    · unfold hmacEvents
      split <;> decide
    split
    · unfold rsaEvents
      repeat' split
      all_goals decide
    split
    · unfold pssEvents
      repeat' split
      all_goals decide
    split
    · unfold ecdsaEvents ecdsaBodyEvents
      repeat' split
      all_goals decide
    split
    · unfold edEvents
      repeat' split
      all_goals decide
    · decide

/-- The code with which the main model leaves the switch (`none`: it goes on). -/
def exitRc {α : Type} (r : Except Nat α) : Option Nat :=
  match r with
  | .error rc => some rc
  | .ok _ => none

theorem rdN_inv {α : Type} {mem : List α} {n : Nat} {k : List α} (h : rdN mem n = .ok k) : k = mem.take n := by
  unfold rdN at h
  split at h
  · injection h with h; exact h.symm
  · cases h

theorem hmacEvents_rc (c : Crypto) (alg : Int) (md : Md) (key : Bytes) (n : Nat) (msg : Bytes) (r : SigRes)
    (h : signHmac c alg md key n msg = .ok r) : (hmacEvents c md (key.take (n - 1)) msg).2 = exitRc r := by
  unfold signHmac at h
  cases hk : rdN key (n - 1) with
  | error e => rw [hk] at h; cases h
  | ok k =>
    rw [hk] at h
    replace h : (match c.hmac md k msg with
      | none => Except.ok (.error L8W8JWT_SIGNATURE_CREATION_FAILURE)
      | some h => .ok (.ok ((padTo 4096 h).take (32 + 16 * alg.toNat)))) = Except.ok r := h
    rw [rdN_inv hk] at h
    unfold hmacEvents
    split at h <;> (injection h with h; subst h; rename_i hm; rw [hm]; rfl)

theorem rsaEvents_rc (c : Crypto) (md : Md) (key : Bytes) (n : Nat) (pw : Option Bytes) (msg : Bytes) (r : SigRes)
    (h : signRsa c md key n pw msg = .ok r) : (rsaEvents c md (key.take n) pw msg).2 = exitRc r := by
  unfold signRsa at h
  cases hk : rdN key n with
  | error e => rw [hk] at h; cases h
  | ok k =>
    rw [hk] at h
    simp only [bind, Except.bind] at h
    rw [rdN_inv hk] at h
    unfold rsaEvents
    split at h
    · rename_i hm; rw [hm]; injection h with h; subst h; rfl
    rename_i pk hm
    rw [hm]
    simp only
    split at h
    · rename_i hc; rw [if_pos hc]; injection h with h; subst h; rfl
    rename_i hc; rw [if_neg hc]
    split at h
    · rename_i hc; rw [if_pos hc]; injection h with h; subst h; rfl
    rename_i hc; rw [if_neg hc]
    split at h
    · rename_i hm; rw [hm]; injection h with h; subst h; rfl
    rename_i hm; rw [hm]
    simp only
    split at h
    · rename_i hm; rw [hm]; injection h with h; subst h; rfl
    rename_i hm; rw [hm]
    simp only
    split at h
    · rename_i hc; rw [if_pos hc]; injection h with h; subst h; rfl
    · rename_i hc; rw [if_neg hc]; injection h with h; subst h; rfl

theorem pssEvents_rc (c : Crypto) (md : Md) (key : Bytes) (n : Nat) (pw : Option Bytes) (msg : Bytes) (r : SigRes)
    (h : signPss c md key n pw msg = .ok r) : (pssEvents c md (key.take n) pw msg).2 = exitRc r := by
  unfold signPss at h
  cases hk : rdN key n with
  | error e => rw [hk] at h; cases h
  | ok k =>
    rw [hk] at h
    simp only [bind, Except.bind] at h
    rw [rdN_inv hk] at h
    unfold pssEvents
    split at h
    · rename_i hm; rw [hm]; injection h with h; subst h; rfl
    rename_i pk hm
    rw [hm]
    simp only
    split at h
    · rename_i hc; rw [if_pos hc]; injection h with h; subst h; rfl
    rename_i hc; rw [if_neg hc]
    split at h
    · rename_i hc; rw [if_pos hc]; injection h with h; subst h; rfl
    rename_i hc; rw [if_neg hc]
    split at h
    · rename_i hm; rw [hm]; injection h with h; subst h; rfl
    rename_i hm; rw [hm]
    simp only
    split at h
    · cases h
    split at h
    · rename_i hm; rw [hm]; injection h with h; subst h; rfl
    rename_i sig hm; rw [hm]
    simp only
    generalize wrAt (List.replicate 4096 0) 0 sig = w at h
    cases w with
    | error e => cases h
    | ok buf =>
      simp only at h
      generalize rdN buf (c.bitlen pk / 8) = q at h
      cases q with
      | error e => cases h
      | ok s => injection h with h; subst h; rfl

theorem ecdsaEvents_rc (c : Crypto) (alg : Int) (md : Md) (key : Bytes) (n : Nat) (pw : Option Bytes) (msg : Bytes) (r : SigRes)
    (h : signEcdsa c alg md key n pw msg = .ok r) : (ecdsaEvents c alg md (key.take n) pw msg).2 = exitRc r := by
  unfold signEcdsa at h
  cases hk : rdN key n with
  | error e => rw [hk] at h; cases h
  | ok k =>
    rw [hk] at h
    simp only [bind, Except.bind] at h
    rw [rdN_inv hk] at h
    unfold ecdsaEvents ecdsaBodyEvents
    simp only
    split at h
    · rename_i hm; rw [hm]; injection h with h; subst h; rfl
    rename_i pk hm
    rw [hm]
    simp only
    split at h
    · rename_i hc; rw [if_pos hc]; injection h with h; subst h; rfl
    rename_i hc; rw [if_neg hc]
    split at h
    · cases h
    split at h
    · rename_i hc; rw [if_pos hc]; injection h with h; subst h; rfl
    rename_i hc; rw [if_neg hc]
    split at h
    · rename_i hm; rw [hm]; injection h with h; subst h; rfl
    rename_i hm; rw [hm]
    simp only
    split at h
    · rename_i hm; rw [hm]; injection h with h; subst h; rfl
    rename_i hm; rw [hm]
    simp only
    split at h
    · rename_i hc; rw [if_pos hc]; injection h with h; subst h; rfl
    rename_i hc; rw [if_neg hc]
    split at h
    · rename_i hc; rw [if_pos hc]; injection h with h; subst h; rfl
    rename_i hc; rw [if_neg hc]
    split at h
    · rename_i hm; rw [hm]; injection h with h; subst h; rfl
    rename_i hm; rw [hm]
    simp only
    split at h
    · rename_i hm; rw [hm]; injection h with h; subst h; rfl
    rename_i hm; rw [hm]
    simp only
    split at h
    · rename_i hm; rw [hm]; injection h with h; subst h; rfl
    · rename_i hm; rw [hm]; injection h with h; subst h; rfl

theorem edEvents_rc (env : Env) (sk : Option Bytes) (n : Nat) (msg : Bytes) (r : SigRes) (h : signEd env sk n msg = .ok r) :
    (edEvents env (sk.getD []) n).2 = exitRc r := by
  unfold signEd at h
  unfold edEvents
  split at h
  · rename_i hc; rw [if_pos hc]; injection h with h; subst h; rfl
  rename_i hc; rw [if_neg hc]
  cases sk with
  | none => cases h
  | some mem =>
    simp only [deref, bind, Except.bind, Option.getD_some] at h ⊢
    generalize hexstr2bin env.charSigned (some mem) n (some 65) 65 true = x at h ⊢
    by_cases h1 : n = 128
    · rw [if_pos h1] at h
      rw [if_neg (fun x => x (Or.inl h1))]
      simp only [Bool.not_true, Bool.false_eq_true, if_false] at h
      cases x with
      | error e => cases h
      | ok o =>
        simp only at h ⊢
        split at h
        · rename_i hc; rw [if_pos hc]; injection h with h; subst h; rfl
        · rename_i hc; rw [if_neg hc]; injection h with h; subst h; rfl
    · rw [if_neg h1] at h
      by_cases h2 : n = 129
      · rw [if_pos h2] at h
        cases hb : mem[128]? with
        | none => simp [rd, hb] at h
        | some b =>
          by_cases h0 : b = 0
          · subst h0
            simp only [rd, hb, decide_true, Bool.not_true, Bool.false_eq_true, if_false] at h
            rw [if_neg (fun x => x (Or.inr ⟨h2, rfl⟩))]
            cases x with
            | error e => cases h
            | ok o =>
              simp only at h ⊢
              split at h
              · rename_i hc; rw [if_pos hc]; injection h with h; subst h; rfl
              · rename_i hc; rw [if_neg hc]; injection h with h; subst h; rfl
          · simp only [rd, hb, h0, decide_false, Bool.not_false, if_true] at h
            injection h with h
            subst h
            rw [if_pos (fun x => by
              cases x with
              | inl x => exact h1 x
              | inr x => exact h0 (Option.some.inj x.2))]
            rfl
      · rw [if_neg h2] at h
        simp only [Bool.not_false, if_true] at h
        injection h with h
        subst h
        rw [if_pos (fun x => by
          cases x with
          | inl x => exact h1 x
          | inr x => exact h2 x.1)]
        rfl

theorem pwArg_inv {pw : Option Bytes} {n : Nat} {q : Option Bytes} (h : pwArg pw n = .ok q) : q = pw.map (·.take n) := by
  unfold pwArg at h
  cases pw with
  | none => injection h with h; exact h.symm
  | some m =>
    cases hr : rdN m n with
    | error e => simp [hr, bind, Except.bind] at h
    | ok b =>
      simp only [hr, bind, Except.bind] at h
      injection h with h
      rw [← h, rdN_inv hr]
      rfl

/-- **C55**, encoder: the sequence of operations belongs to the run that `Model/Encode.lean` describes: whenever that run is defined,
both jump to `exit` with the same code, or both create a signature. -/
theorem C55_sign_same_run (env : Env) (p : EncParams) (key : Bytes) (n : Nat) (msg : Bytes) (r : SigRes)
    (hk : loadKey p.secretKey p.secretKeyLength = .ok (key, n)) (h : signSwitch env p key n msg = .ok r) :
    (writeSignatureEvents env p msg).2 = exitRc r := by
  unfold writeSignatureEvents
  rw [hk]
  show (signEvents env p key n msg).2 = exitRc r
  unfold signSwitch at h
  unfold signEvents
  simp only at h ⊢
  split at h
  · rename_i hc; rw [if_pos hc]; injection h with h; subst h; rfl
  rename_i hc; rw [if_neg hc]
  split at h
  · rename_i hc; rw [if_pos hc]
    cases hm : encMd p.alg with
    | none => rw [hm] at h; cases h
    | some md => rw [hm] at h; exact hmacEvents_rc _ _ _ _ _ _ _ h
  rename_i hc; rw [if_neg hc]
  split at h
  · rename_i hc; rw [if_pos hc]
    cases hm : encMd p.alg with
    | none => rw [hm] at h; cases h
    | some md =>
      rw [hm] at h
      cases hp : pwArg p.secretKeyPw p.secretKeyPwLength with
      | error e => simp [deref, hp, bind, Except.bind] at h
      | ok pw =>
        simp only [deref, hp, bind, Except.bind] at h
        rw [← pwArg_inv hp]
        exact rsaEvents_rc _ _ _ _ _ _ _ h
  rename_i hc; rw [if_neg hc]
  split at h
  · rename_i hc; rw [if_pos hc]
    cases hm : encMd p.alg with
    | none => rw [hm] at h; cases h
    | some md =>
      rw [hm] at h
      cases hp : pwArg p.secretKeyPw p.secretKeyPwLength with
      | error e => simp [deref, hp, bind, Except.bind] at h
      | ok pw =>
        simp only [deref, hp, bind, Except.bind] at h
        rw [← pwArg_inv hp]
        exact pssEvents_rc _ _ _ _ _ _ _ h
  rename_i hc; rw [if_neg hc]
  split at h
  · rename_i hc; rw [if_pos hc]
    cases hm : encMd p.alg with
    | none => rw [hm] at h; cases h
    | some md =>
      rw [hm] at h
      cases hp : pwArg p.secretKeyPw p.secretKeyPwLength with
      | error e => simp [deref, hp, bind, Except.bind] at h
      | ok pw =>
        simp only [deref, hp, bind, Except.bind] at h
        rw [← pwArg_inv hp]
        exact ecdsaEvents_rc _ _ _ _ _ _ _ _ h
  rename_i hc; rw [if_neg hc]
  split at h
  · rename_i hc; rw [if_pos hc]
    exact edEvents_rc _ _ _ _ _ h
  · rename_i hc; rw [if_neg hc]; injection h with h; subst h; rfl

/-- **C55**, decoder: the same for `l8w8jwt_verify_signature`, in particular when the key is the certificate's, which is released
once, with the certificate. -/
theorem C55_verify_tidy (env : Env) (p : DecParams) : Tidy (verifySignatureEvents env p).1 := by
  rw [tidy_iff]
  have sw : ∀ (pre post : List Ev) (crt : Option env.crypto.PK) (b : Bool) (_ : crt.isNone = b) (key : Bytes) (n : Nat),
      (∀ t ∈ ([[], [.use .pk], [.use .pk, .use .pk],
        [.init .ecdsa, .init .sigR, .init .sigS, .use .pk, .fill .ecdsa, .free .ecdsa, .free .sigR, .free .sigS],
        [.init .ecdsa, .init .sigR, .init .sigS, .use .pk, .fill .ecdsa, .fill .sigR, .fill .sigS, .use .ecdsa, .use .sigR,
          .use .sigS, .free .ecdsa, .free .sigR, .free .sigS]] : List (List Ev)),
        tidyB (pre ++ (if b then [.fill .pk] else []) ++ t ++ post) = true) →
      tidyB (pre ++ post) = true → tidyB (pre ++ (verifyTailEvents env p crt key n).1 ++ post) = true := by
    intro pre post crt b hcb key n hall h0
    unfold verifyTailEvents
    split
    · simpa using h0
    unfold verifyEvents
    simp only
    have hp : (pubEvents env.crypto crt (key.take n)).1 = if b then [.fill .pk] else [] := by
      subst hcb; cases crt <;> rfl
    rw [hp]
    split
    · simpa using h0
    split
    · split
      · have := hall [] (by simp); simpa using this
      · have := hall [.use .pk] (by simp); simpa using this
    split
    · split
      · have := hall [] (by simp); simpa using this
      · have := hall [.use .pk, .use .pk] (by simp); simpa using this
    split
    · split
      · have := hall [] (by simp); simpa using this
      · rename_i pk _
        by_cases hq : (!env.crypto.ecOk pk) = true
        · have := hall _ (List.mem_cons_of_mem _ (List.mem_cons_of_mem _ (List.mem_cons_of_mem _ List.mem_cons_self)))
          simp only [ecdsaVerifyEvents, if_pos hq]
          simpa using this
        · have := hall _ (List.mem_cons_of_mem _ (List.mem_cons_of_mem _ (List.mem_cons_of_mem _
            (List.mem_cons_of_mem _ List.mem_cons_self))))
          simp only [ecdsaVerifyEvents, if_neg hq]
          simpa using this
    split
    · have he : (edVerifyEvents env key n).1 = [] := by
        unfold edVerifyEvents
        repeat' split
        all_goals rfl
      rw [he]
      simpa using h0
    · simpa using h0
  have hb : ((verifyBodyEvents env p).2 = false ∧ ((verifyBodyEvents env p).1.1 = [] ∨ ∃ key n,
        (verifyBodyEvents env p).1.1 = .copyKey :: (verifyTailEvents env p none key n).1)) ∨
      ((verifyBodyEvents env p).2 = true ∧ ((verifyBodyEvents env p).1.1 = [.copyKey, .fill .crt] ∨ ∃ pk key n,
        (verifyBodyEvents env p).1.1 = [.copyKey, .fill .crt, .share .pk .crt] ++ (verifyTailEvents env p (some pk) key n).1)) := by
    unfold verifyBodyEvents
    split
    · exact Or.inl ⟨rfl, Or.inl rfl⟩
    split
    · split
      · exact Or.inr ⟨rfl, Or.inl rfl⟩
      · exact Or.inr ⟨rfl, Or.inr ⟨_, _, _, rfl⟩⟩
    · exact Or.inl ⟨rfl, Or.inr ⟨_, _, rfl⟩⟩
  unfold verifySignatureEvents
  simp only
  rcases hb with ⟨h2, h1 | ⟨key, n, h1⟩⟩ | ⟨h2, h1 | ⟨pk, key, n, h1⟩⟩
  · rw [h1, h2]; rfl
  · rw [h1, h2]
    have := sw [.init .pk, .init .crt, .copyKey] [.wipeKey, .free .pk] none true rfl key n (by decide) (by decide)
    simpa using this
  · rw [h1, h2]; rfl
  · rw [h1, h2]
    have := sw [.init .pk, .init .crt, .copyKey, .fill .crt, .share .pk .crt] [.wipeKey, .free .crt] (some pk) false rfl key n
      (by decide) (by decide)
    simpa using this

theorem verifyEvents_rc (env : Env) (alg : Int) (crt : Option env.crypto.PK) (key : Bytes) (n : Nat) (msg hash sig : Bytes)
    (sn : Nat) (r : VerRes) (h : verifySwitch env alg crt key n msg hash sig sn = .ok r) :
    (verifyEvents env alg crt key n).2 = exitRc r := by
  have hpub : ∀ q, verificationPk env.crypto crt key n = .ok q → (pubEvents env.crypto crt (key.take n)).2 = q := by
    intro q hq
    unfold verificationPk at hq
    cases crt with
    | some pk => injection hq
    | none =>
      simp only at hq
      cases hr : rdN key n with
      | error e => rw [hr] at hq; cases hq
      | ok k =>
        rw [hr] at hq
        injection hq with hq
        rw [← hq, rdN_inv hr]
        rfl
  unfold verifySwitch at h
  unfold verifyEvents
  simp only at h ⊢
  split at h
  · rename_i hc; rw [if_pos hc]
    cases hm : decMd alg with
    | none => rw [hm] at h; cases h
    | some md =>
      rw [hm] at h
      replace h : verifyHmac env.crypto alg md key n msg sig = .ok r := h
      unfold verifyHmac at h
      cases hr : rdN key (n - 1) with
      | error e => rw [hr] at h; cases h
      | ok k =>
        rw [hr] at h
        simp only [bind, Except.bind] at h
        split at h
        · injection h with h; subst h; rfl
        · generalize memcmpNe _ _ _ = w at h
          cases w with
          | error e => cases h
          | ok w => injection h with h; subst h; rfl
  rename_i hc; rw [if_neg hc]
  split at h
  · rename_i hc; rw [if_pos hc]
    cases hm : decMd alg with
    | none => rw [hm] at h; cases h
    | some md =>
      rw [hm] at h
      replace h : verifyRsa env.crypto md crt key n hash sig sn = .ok r := h
      unfold verifyRsa at h
      cases hv : verificationPk env.crypto crt key n with
      | error e => rw [hv] at h; cases h
      | ok q =>
        rw [hpub q hv]
        rw [hv] at h
        simp only [bind, Except.bind] at h
        cases q with
        | none => injection h with h; subst h; rfl
        | some pk =>
          simp only at h
          cases hr : rdN sig sn with
          | error e => rw [hr] at h; cases h
          | ok b => rw [hr] at h; injection h with h; subst h; rfl
  rename_i hc; rw [if_neg hc]
  split at h
  · rename_i hc; rw [if_pos hc]
    cases hm : decMd alg with
    | none => rw [hm] at h; cases h
    | some md =>
      rw [hm] at h
      replace h : verifyPss env.crypto md crt key n hash sig = .ok r := h
      unfold verifyPss at h
      cases hv : verificationPk env.crypto crt key n with
      | error e => rw [hv] at h; cases h
      | ok q =>
        rw [hpub q hv]
        rw [hv] at h
        simp only [bind, Except.bind] at h
        cases q with
        | none => injection h with h; subst h; rfl
        | some pk =>
          simp only at h
          split at h
          · cases h
          cases hr : rdN sig (env.crypto.rsaLen pk) with
          | error e => rw [hr] at h; cases h
          | ok b => rw [hr] at h; injection h with h; subst h; rfl
  rename_i hc; rw [if_neg hc]
  split at h
  · rename_i hc; rw [if_pos hc]
    unfold verifyEcdsa at h
    cases hv : verificationPk env.crypto crt key n with
    | error e => rw [hv] at h; cases h
    | ok q =>
      rw [hpub q hv]
      rw [hv] at h
      simp only [bind, Except.bind] at h
      cases q with
      | none => injection h with h; subst h; rfl
      | some pk =>
        simp only at h ⊢
        split at h
        · cases h
        split at h
        · rename_i hc
          simp only [ecdsaVerifyEvents, if_pos hc]
          injection h with h; subst h; rfl
        · rename_i hc
          simp only [ecdsaVerifyEvents, if_neg hc]
          generalize rdN sig (sn / 2) = a at h
          cases a with
          | error e => cases h
          | ok a =>
            simp only at h
            generalize rdN (sig.drop (sn / 2)) (sn / 2) = b at h
            cases b with
            | error e => cases h
            | ok b => injection h with h; subst h; rfl
  rename_i hc; rw [if_neg hc]
  split at h
  · rename_i hc; rw [if_pos hc]
    unfold verifyEd at h
    unfold edVerifyEvents
    split at h
    · rename_i hc; rw [if_pos hc]; injection h with h; subst h; rfl
    rename_i hc; rw [if_neg hc]
    cases hb : key[64]? with
    | none => simp [rd, hb, bind, Except.bind] at h
    | some b =>
      simp only [rd, hb, bind, Except.bind] at h
      by_cases hg : n ≠ 64 ∧ ¬(n = 65 ∧ b = 0)
      · rw [if_pos hg] at h
        rw [if_pos ⟨hg.1, fun x => hg.2 ⟨x.1, Option.some.inj x.2⟩⟩]
        injection h with h; subst h; rfl
      · rw [if_neg hg] at h
        rw [if_neg (fun x => hg ⟨x.1, fun y => x.2 ⟨y.1, congrArg some y.2⟩⟩)]
        generalize hexstr2bin env.charSigned (some key) n (some 33) 33 true = x at h ⊢
        cases x with
        | error e => cases h
        | ok o =>
          simp only at h ⊢
          split at h
          · rename_i hc; rw [if_pos hc]; injection h with h; subst h; rfl
          · rename_i hc; rw [if_neg hc]
            generalize rdN sig 64 = w at h
            cases w with
            | error e => cases h
            | ok w => injection h with h; subst h; rfl
  · rename_i hc; rw [if_neg hc]; injection h with h; subst h; rfl

/-- **C55**, decoder: the sequence of operations belongs to the run that `Model/Decode.lean` describes. -/
theorem C55_verify_same_run (env : Env) (p : DecParams) (sig : Bytes) (sn : Nat) (r : VerRes)
    (h : verifyBody env p sig sn = .ok r) : (verifySignatureEvents env p).2 = exitRc r := by
  have tail : ∀ (crt : Option env.crypto.PK) (key : Bytes) (n : Nat) (_ : (do
      let jwt ← deref p.jwt
      let dot ← signatureDot jwt
      match dot with
      | none => .ok (.error L8W8JWT_DECODE_FAILED_INVALID_TOKEN_FORMAT)
      | some dot => do
        let msg ← rdN jwt dot
        match verifyHash env.crypto p.alg msg with
        | none => .ok (.error L8W8JWT_SHA2_FAILURE)
        | some hash => verifySwitch env p.alg crt key n msg hash sig sn : Res VerRes) = .ok r),
      (verifyTailEvents env p crt key n).2 = exitRc r := by
    intro crt key n h
    unfold verifyTailEvents hashRc
    cases hj : p.jwt with
    | none => rw [hj] at h; cases h
    | some jwt =>
      simp only [hj, deref, bind, Except.bind] at h ⊢
      cases hd : signatureDot jwt with
      | error e => rw [hd] at h; cases h
      | ok d =>
        rw [hd] at h
        cases d with
        | none => injection h with h; subst h; rfl
        | some d =>
          simp only at h ⊢
          cases hr : rdN jwt d with
          | error e => rw [hr] at h; cases h
          | ok msg =>
            rw [hr] at h
            simp only at h
            rw [← rdN_inv hr]
            cases hh : verifyHash env.crypto p.alg msg with
            | none => rw [hh] at h; injection h with h; subst h; rfl
            | some hash =>
              rw [hh] at h
              exact verifyEvents_rc env p.alg crt key n msg hash sig sn r h
  unfold verifyBody at h
  unfold verifySignatureEvents verifyBodyEvents
  simp only
  cases hk : loadKey p.verificationKey p.verificationKeyLength with
  | error e => rw [hk] at h; cases h
  | ok kn =>
    obtain ⟨key, n⟩ := kn
    rw [hk] at h
    simp only [bind, Except.bind] at h ⊢
    unfold loadCrt at h
    cases hs : strstrFound key (str "-----BEGIN CERTIFICATE-----") with
    | error e => rw [hs] at h; cases h
    | ok b =>
      rw [hs] at h
      simp only [bind, Except.bind] at h
      cases b with
      | false => exact tail none key n h
      | true =>
        simp only [if_true] at h ⊢
        cases hr : rdN key n with
        | error e => rw [hr] at h; cases h
        | ok k =>
          rw [hr] at h
          simp only at h
          rw [← rdN_inv hr]
          cases hc : env.crypto.parseCrt k with
          | none => rw [hc] at h; injection h with h; subst h; rfl
          | some pk => rw [hc] at h; exact tail (some pk) key n h

/-- **C55**: also in the runs of a small stack build that fail for lack of memory. -/
theorem C55_oom_tidy : Tidy writeSignatureOomEvents ∧ Tidy verifySignatureOomEvents := by
  rw [tidy_iff, tidy_iff]
  decide

/-! Examples: sequences that are not in order. -/

/-- forgetting to release the ECDSA context -/
example : ¬ Tidy [.init .pk, .init .ecdsa, .copyKey, .fill .pk, .fill .ecdsa, .wipeKey, .free .pk] := by rw [tidy_iff]; decide

/-- releasing both the certificate and its key -/
example : ¬ Tidy [.init .pk, .init .crt, .copyKey, .fill .crt, .share .pk .crt, .use .pk, .wipeKey, .free .crt, .free .pk] := by
  rw [tidy_iff]; decide

/-- using the certificate's key after the certificate was released -/
example : ¬ Tidy [.init .pk, .init .crt, .fill .crt, .share .pk .crt, .free .crt, .use .pk] := by rw [tidy_iff]; decide

/-- not wiping the key -/
example : ¬ Tidy [.init .pk, .copyKey, .fill .pk, .free .pk] := by rw [tidy_iff]; decide

/-- overwriting a parsed key with the certificate's key -/
example : ¬ Tidy [.init .pk, .init .crt, .fill .pk, .fill .crt, .share .pk .crt, .free .crt] := by rw [tidy_iff]; decide

/-! Examples: the sequences of real runs (toy crypto library). -/

/-- an ES256 signature with a P-256 key -/
example : writeSignatureEvents toy { alg := L8W8JWT_ALG_ES256, secretKey := some (str "P"), secretKeyLength := 1 } (str "a.b") =
    ([.init .pk, .init .entropy, .init .drbg, .copyKey, .fill .entropy, .fill .drbg, .init .ecdsa, .init .sigR, .init .sigS,
      .use .drbg, .fill .pk, .use .pk, .fill .ecdsa, .use .ecdsa, .use .pk, .use .ecdsa, .use .drbg, .fill .sigR, .fill .sigS,
      .use .sigR, .use .sigS, .free .sigR, .free .sigS, .free .ecdsa, .wipeKey, .free .drbg, .free .entropy, .free .pk], none) := by
  decide +kernel

/-- an RS256 signature with a key that is too short -/
example : writeSignatureEvents toy { alg := L8W8JWT_ALG_RS256, secretKey := some (str "W"), secretKeyLength := 1 } (str "a.b") =
    ([.init .pk, .init .entropy, .init .drbg, .copyKey, .fill .entropy, .fill .drbg, .use .drbg, .fill .pk, .use .pk, .wipeKey,
      .free .drbg, .free .entropy, .free .pk], some L8W8JWT_WRONG_KEY_TYPE) := by
  decide +kernel

end L8w8jwt
