import Verif.Props.DecodeSafe
import Verif.Spec.Time
/-!
# Properties C33-C35: claim validation
-/

namespace L8w8jwt
open Spec

variable {s : Sched} {h h' : Heap} {env : Env} {p : DecParams} {tok : Bytes} {cs : List Claim} {ds : List DClaim}

/-! ## C33 -/

theorem claimStarting_eq {name : Bytes} (hn : NoShadow name ds) : claimStarting name ds = claimNamed name ds := by
  unfold claimStarting claimNamed
  induction ds with
  | nil => rfl
  | cons d ds ih =>
    have hd : name.isPrefixOf d.key = (d.key == name) := by
      cases hp : name.isPrefixOf d.key with
      | true =>
        obtain ⟨t, ht⟩ := List.isPrefixOf_iff_prefix.mp hp
        have := hn d (by simp) t ht.symm
        rw [this, List.append_nil] at ht
        simp [ht]
      | false =>
        cases he : d.key == name with
        | false => rfl
        | true =>
          have : d.key = name := by simpa using he
          rw [this, List.isPrefixOf_iff_prefix.mpr (List.prefix_refl name)] at hp
          cases hp
    simp only [List.find?_cons, hd]
    rw [ih (fun d' hd' => hn d' (by simp [hd']))]

/-- C33: claim validation sets exactly the documented flags, provided no claim has a name that properly extends one of the
validated names, and the expected type is given with its length and is not shorter than the one in the token. Missing for the
full statement: other claims, for which it is false (`C33_prefix_false`, `C33_typ_false`). -/
theorem C33_flags_partial (hv : Views cs ds) (he : ExpectOk p) (hn : NowOk env.now) (ha : TypDefined env p ds)
    (hs : ∀ x ∈ validatedNames, NoShadow (str x) ds)
    (ht : ∀ e, p.validateTyp = some e → p.validateTypLength = (cString e).length ∧ cString e ≠ [] ∧
      ∀ d, claimNamed (str "typ") ds = some d → d.value.length ≤ (cString e).length) (v : VRes) :
    validateClaims env p cs v = .ok (v ||| exactFlags ds env.now p) := by
  rw [validateClaims_eq hv he hn ha]
  have hf : ∀ x ∈ validatedNames, claimStarting (str x) ds = claimNamed (str x) ds := fun x hx => claimStarting_eq (hs x hx)
  have htyp : typFails (fun x => claimStarting x ds) p.validateTyp p.validateTypLength = typDiffers (fun x => claimNamed x ds) p.validateTyp := by
    unfold typFails typDiffers
    cases hp : p.validateTyp with
    | none => rfl
    | some e =>
      obtain ⟨h1, h2, h3⟩ := ht e hp
      simp only [hf "typ" (by decide)]
      cases hd : claimNamed (str "typ") ds with
      | none => rfl
      | some d =>
        have := h3 d hd
        have h4 : (cString e).isEmpty = false := by
          cases hce : cString e with
          | nil => exact absurd hce h2
          | cons _ _ => rfl
        have h5 : ((cString e).length == 0) = false := by
          cases hce : cString e with
          | nil => exact absurd hce h2
          | cons _ _ => rfl
        simp only [h1, List.take_length, h4, h5, Bool.and_false, Bool.or_false]
        rw [List.take_of_length_le this]
  congr 2
  unfold claimFlags exactFlags strFails lateFails earlyFails
  rw [htyp]
  simp only [hf _ (show "iss" ∈ validatedNames by decide), hf _ (show "sub" ∈ validatedNames by decide),
    hf _ (show "aud" ∈ validatedNames by decide), hf _ (show "jti" ∈ validatedNames by decide),
    hf _ (show "exp" ∈ validatedNames by decide), hf _ (show "nbf" ∈ validatedNames by decide),
    hf _ (show "iat" ∈ validatedNames by decide)]

/-- The bits of the flags. -/
theorem flag_bits (a b c d e f g i : Bool) :
    let x : VRes := (if a then 1 else 0) ||| (if b then 2 else 0) ||| (if c then 4 else 0) ||| (if d then 8 else 0) |||
      (if e then 16 else 0) ||| (if f then 32 else 0) ||| (if g then 64 else 0) ||| (if i then 256 else 0)
    (x &&& 1 ≠ 0 ↔ a) ∧ (x &&& 2 ≠ 0 ↔ b) ∧ (x &&& 4 ≠ 0 ↔ c) ∧ (x &&& 8 ≠ 0 ↔ d) ∧ (x &&& 16 ≠ 0 ↔ e) ∧
      (x &&& 32 ≠ 0 ↔ f) ∧ (x &&& 64 ≠ 0 ↔ g) ∧ (x &&& 256 ≠ 0 ↔ i) ∧ x &&& ~~~383 = 0 := by
  cases a <;> cases b <;> cases c <;> cases d <;> cases e <;> cases f <;> cases g <;> cases i <;> decide

/-- C33: each flag has the documented meaning, and no other flag is ever set. -/
theorem C33_flag_meaning : let x := exactFlags ds env.now p
    let find n := claimNamed n ds
    (x &&& L8W8JWT_ISS_FAILURE ≠ 0 ↔ strFails find "iss" p.validateIss p.validateIssLength) ∧
    (x &&& L8W8JWT_SUB_FAILURE ≠ 0 ↔ strFails find "sub" p.validateSub p.validateSubLength) ∧
    (x &&& L8W8JWT_AUD_FAILURE ≠ 0 ↔ strFails find "aud" p.validateAud p.validateAudLength) ∧
    (x &&& L8W8JWT_JTI_FAILURE ≠ 0 ↔ strFails find "jti" p.validateJti p.validateJtiLength) ∧
    (x &&& L8W8JWT_EXP_FAILURE ≠ 0 ↔ lateFails find "exp" p.validateExp env.now p.expTolerance) ∧
    (x &&& L8W8JWT_NBF_FAILURE ≠ 0 ↔ earlyFails find "nbf" p.validateNbf env.now p.nbfTolerance) ∧
    (x &&& L8W8JWT_IAT_FAILURE ≠ 0 ↔ earlyFails find "iat" p.validateIat env.now p.iatTolerance) ∧
    (x &&& L8W8JWT_TYP_FAILURE ≠ 0 ↔ typDiffers find p.validateTyp) ∧ x &&& ~~~383 = 0 := flag_bits ..

/-- A toy token and decoding parameters that expect an issuer / a type. -/
def expectIss (hdr pay iss : String) : DecParams := { toyDec (mkTok hdr pay (toyMac hdr pay)) with validateIss := some (str iss ++ [0]) }
def expectTyp (hdr pay typ : String) (n : Nat) : DecParams :=
  { toyDec (mkTok hdr pay (toyMac hdr pay)) with validateTyp := some (str typ ++ [0]), validateTypLength := n }

/-- C33 is false: a token without `iss` whose claim `issuer` has the expected value is accepted; and a token that has the
expected `iss` is rejected if a claim `iss2` comes first. -/
theorem C33_prefix_false : verdict (expectIss hdr1 "{\"issuer\":\"me\"}" "me") = some (0, some 0) ∧
    verdict (expectIss hdr1 "{\"iss2\":\"x\",\"iss\":\"me\"}" "me") = some (0, some 1) := by decide +kernel

/-- C33 is false: `typ` is compared only in its first `validate_typ_length` characters, and never accepted for length 0. -/
theorem C33_typ_false : verdict (expectTyp "{\"typ\":\"JWT-not\"}" pay1 "JWT" 3) = some (0, some 0) ∧
    verdict (expectTyp "{\"typ\":\"JWT\"}" pay1 "JWT" 0) = some (0, some 256) := by decide +kernel

example : verdict (expectIss hdr1 "{\"iss\":\"me\"}" "me") = some (0, some 0) ∧
    verdict (expectIss hdr1 "{\"iss\":\"you\"}" "me") = some (0, some 1) ∧ verdict (expectIss hdr1 "{\"sub\":\"me\"}" "me") = some (0, some 1) ∧
    verdict (expectTyp "{\"typ\":\"jwt\"}" pay1 "JWT" 3) = some (0, some 0) ∧
    verdict (expectTyp "{\"typ\":\"JWS\"}" pay1 "JWT" 3) = some (0, some 256) := by decide +kernel

/-! ## C34 -/

/-- The parameters with other tolerances. -/
def withTol (p : DecParams) (e n i : UInt8) : DecParams := { p with expTolerance := e, nbfTolerance := n, iatTolerance := i }

theorem lateFails_mono {find : Bytes → Option DClaim} {k : String} {en : Bool} {t t' : Int} {a b : UInt8} (ht : t ≤ t')
    (hab : b ≤ a) (h : lateFails find k en t a) : lateFails find k en t' b := by
  unfold lateFails at h ⊢
  have := UInt8.le_iff_toNat_le.mp hab
  cases hc : find (str k) with
  | none => simpa [hc] using h
  | some d =>
    simp only [hc, Bool.and_eq_true, decide_eq_true_eq] at h ⊢
    exact ⟨h.1, by omega⟩

theorem earlyFails_mono {find : Bytes → Option DClaim} {k : String} {en : Bool} {t t' : Int} {a b : UInt8} (ht : t ≤ t')
    (hab : a ≤ b) (h : earlyFails find k en t' b) : earlyFails find k en t a := by
  unfold earlyFails at h ⊢
  have := UInt8.le_iff_toNat_le.mp hab
  cases hc : find (str k) with
  | none => simpa [hc] using h
  | some d =>
    simp only [hc, Bool.and_eq_true, decide_eq_true_eq] at h ⊢
    exact ⟨h.1, by omega⟩

theorem zeroOr (x : VRes) : 0 ||| x = x := BitVec.zero_or

/-- C34: with the same claims, at a later time, and with tolerances that are not smaller for `nbf`, `iat` and not greater for
`exp`, expiry stays and `nbf`, `iat` stay accepted. -/
theorem C34_later (hv : Views cs ds) (he : ExpectOk p) {t t' : Int} (hn : NowOk t) (hn' : NowOk t') (ha : TypDefined env p ds)
    (ht : t ≤ t') {e n i e' n' i' : UInt8} (h1 : e' ≤ e) (h2 : n ≤ n') (h3 : i ≤ i') :
    ∃ v v', validateClaims { env with now := t } (withTol p e n i) cs 0 = .ok v ∧
      validateClaims { env with now := t' } (withTol p e' n' i') cs 0 = .ok v' ∧
      (v &&& L8W8JWT_EXP_FAILURE ≠ 0 → v' &&& L8W8JWT_EXP_FAILURE ≠ 0) ∧
      (v' &&& L8W8JWT_NBF_FAILURE ≠ 0 → v &&& L8W8JWT_NBF_FAILURE ≠ 0) ∧
      (v' &&& L8W8JWT_IAT_FAILURE ≠ 0 → v &&& L8W8JWT_IAT_FAILURE ≠ 0) := by
  have e1 := validateClaims_eq (env := { env with now := t }) (p := withTol p e n i) hv he hn ha 0
  have e2 := validateClaims_eq (env := { env with now := t' }) (p := withTol p e' n' i') hv he hn' ha 0
  rw [zeroOr] at e1 e2
  refine ⟨_, _, e1, e2, ?_, ?_, ?_⟩
  · intro hx
    exact (flag_bits ..).2.2.2.2.1.mpr (lateFails_mono ht h1 ((flag_bits ..).2.2.2.2.1.mp hx))
  · intro hx
    exact (flag_bits ..).2.2.2.2.2.1.mpr (earlyFails_mono ht h2 ((flag_bits ..).2.2.2.2.2.1.mp hx))
  · intro hx
    exact (flag_bits ..).2.2.2.2.2.2.1.mpr (earlyFails_mono ht h3 ((flag_bits ..).2.2.2.2.2.2.1.mp hx))

theorem claimFlags_tol (find : Bytes → Option DClaim) (now : Int) (p : DecParams) {e n i e' n' i' : UInt8} (h1 : e ≤ e') (h2 : n ≤ n') (h3 : i ≤ i') :
    claimFlags find now (withTol p e' n' i') &&& ~~~claimFlags find now (withTol p e n i) = 0 := by
  unfold claimFlags
  simp only [withTol]
  have key : ∀ a b c d e f g i e' f' g' : Bool, (e' → e) → (f' → f) → (g' → g) →
      ((if a then 1 else 0) ||| (if b then 2 else 0) ||| (if c then 4 else 0) ||| (if d then 8 else 0) |||
      (if e' then 16 else 0) ||| (if f' then 32 else 0) ||| (if g' then 64 else 0) ||| (if i then 256 else 0) : VRes) &&&
      ~~~((if a then 1 else 0) ||| (if b then 2 else 0) ||| (if c then 4 else 0) ||| (if d then 8 else 0) |||
      (if e then 16 else 0) ||| (if f then 32 else 0) ||| (if g then 64 else 0) ||| (if i then 256 else 0) : VRes) = 0 := by
    decide +kernel
  exact key _ _ _ _ _ _ _ _ _ _ _ (lateFails_mono (Int.le_refl _) h1) (earlyFails_mono (Int.le_refl _) h2)
    (earlyFails_mono (Int.le_refl _) h3)

/-- C34: raising tolerances never turns an accepted token into a rejected one: all flags are among those set before. -/
theorem C34_tolerance (hv : Views cs ds) (he : ExpectOk p) (hn : NowOk env.now) (ha : TypDefined env p ds)
    {e n i e' n' i' : UInt8} (h1 : e ≤ e') (h2 : n ≤ n') (h3 : i ≤ i') :
    ∃ v v', validateClaims env (withTol p e n i) cs 0 = .ok v ∧ validateClaims env (withTol p e' n' i') cs 0 = .ok v' ∧
      v' &&& ~~~v = 0 := by
  have e1 := validateClaims_eq (p := withTol p e n i) hv he hn ha 0
  have e2 := validateClaims_eq (p := withTol p e' n' i') hv he hn ha 0
  rw [zeroOr] at e1 e2
  refine ⟨_, _, e1, e2, ?_⟩
  exact claimFlags_tol _ _ _ h1 h2 h3

example : (let p : DecParams := { toyDec [] with validateExp := true }
    let c := exClaim "exp" "900" L8W8JWT_CLAIM_TYPE_INTEGER
    [950, 1000, 1050].map fun t => (validateClaims { toy with now := t } (withTol p 100 0 0) [c] 0).toOption) =
    [some 0, some 0, some 16] := by decide +kernel

/-! ## C35 -/

theorem digit_blank {c : UInt8} (h1 : 48 ≤ c) (h2 : c ≤ 57) : blank c = false ∧ digit c = true ∧ c ≠ 45 ∧ c ≠ 43 := by
  have key : ∀ j : Fin 256, 48 ≤ UInt8.ofNat j.val → UInt8.ofNat j.val ≤ 57 → blank (UInt8.ofNat j.val) = false ∧ digit (UInt8.ofNat j.val) = true ∧
    UInt8.ofNat j.val ≠ 45 ∧ UInt8.ofNat j.val ≠ 43 := by decide +kernel
  have := key ⟨c.toNat, c.toNat_lt⟩
  simp only [UInt8.ofNat_toNat] at this
  exact this h1 h2

/-- The integer part of a number is what is read. -/
theorem leadingInt_number {sgn int rest : Bytes} (hs : sgn = [] ∨ sgn = [45]) (hi : JDigits int)
    (hr : ∀ c, rest.head? = some c → digit c = false) :
    leadingInt (sgn ++ int ++ rest) = clamp ((if sgn = [] then 1 else -1) * (digitsValue int : Int)) := by
  have htake : (int ++ rest).takeWhile digit = int := by
    obtain ⟨-, hi⟩ := hi
    induction int with
    | nil =>
      cases rest with
      | nil => rfl
      | cons c t => simp [hr c rfl]
    | cons c t ih =>
      have := (digit_blank (hi c (by simp)).1 (hi c (by simp)).2).2.1
      simp only [List.cons_append, List.takeWhile, this]
      rw [ih (fun x hx => hi x (by simp [hx]))]
  rcases hs with rfl | rfl
  · obtain ⟨hne, hd⟩ := hi
    cases int with
    | nil => exact absurd rfl hne
    | cons c t =>
      obtain ⟨b1, b2, b3, b4⟩ := digit_blank (hd c (by simp)).1 (hd c (by simp)).2
      unfold leadingInt
      simp only [List.nil_append, List.cons_append, List.dropWhile, b1]
      split
      · rename_i h; cases h; exact absurd rfl b3
      · rename_i h; cases h; exact absurd rfl b4
      · have : (c :: (t ++ rest)).takeWhile digit = c :: t := htake
        rw [this]
        simp
  · unfold leadingInt
    have hb : blank 45 = false := by decide
    simp only [List.cons_append, List.nil_append, List.dropWhile, hb]
    rw [htake]
    simp

theorem jdigits_digit {d : Bytes} (h : JDigits d) {c : UInt8} (hc : c ∈ d) : 48 ≤ c.toNat ∧ c.toNat ≤ 57 :=
  ⟨UInt8.le_iff_toNat_le.mp (h.2 c hc).1, UInt8.le_iff_toNat_le.mp (h.2 c hc).2⟩

theorem leadingInt_int {v : Bytes} {x : Int} (h : JInt v x) : leadingInt v = clamp x := by
  rcases h with ⟨hd, rfl⟩ | ⟨d, rfl, hd, rfl⟩
  · have := leadingInt_number (sgn := []) (rest := []) (Or.inl rfl) hd (fun _ h => by cases h)
    simpa using this
  · have := leadingInt_number (sgn := [45]) (rest := []) (Or.inr rfl) hd (fun _ h => by cases h)
    simp only [List.append_nil, List.cons_append, List.nil_append] at this
    rw [this, if_neg (by simp), Int.neg_one_mul]

/-- C35: integer literals are compared by their value, with any time between the limits of `time_t`. -/
theorem C35_integer_partial {v : Bytes} {x n : Int} (h : JInt v x) (h1 : -9223372036854775808 < n) (h2 : n < 9223372036854775807) :
    (n > leadingInt v ↔ n > x) ∧ (n < leadingInt v ↔ n < x) := by
  rw [leadingInt_int h]
  unfold clamp
  omega

/-- C35: integer literals in range are read exactly. -/
theorem C35_integer_value {v : Bytes} {x : Int} (h : JInt v x) (hx : -9223372036854775808 ≤ x ∧ x ≤ 9223372036854775807) :
    leadingInt v = x := by
  rw [leadingInt_int h]
  unfold clamp
  omega

theorem foldl_digits (d : Bytes) (a : Nat) :
    d.foldl (fun a (c : UInt8) => a * 10 + (c.toNat - 48)) a = a * 10 ^ d.length + digitsValue d := by
  unfold digitsValue
  induction d generalizing a with
  | nil => simp
  | cons c d ih =>
    simp only [List.foldl_cons, List.length_cons]
    rw [ih (a * 10 + (c.toNat - 48)), ih (0 * 10 + (c.toNat - 48)), Nat.pow_succ]
    simp only [Nat.add_mul, Nat.zero_mul, Nat.zero_add, Nat.mul_assoc, Nat.mul_comm 10]
    omega

theorem digitsValue_append (a d : Bytes) : digitsValue (a ++ d) = digitsValue a * 10 ^ d.length + digitsValue d := by
  rw [← foldl_digits d (digitsValue a)]
  simp [digitsValue, List.foldl_append]

theorem digitsValue_lt {d : Bytes} (h : ∀ c ∈ d, c.toNat ≤ 57) : digitsValue d < 10 ^ d.length := by
  induction d with
  | nil => decide
  | cons c d ih =>
    rw [← List.singleton_append, digitsValue_append, List.length_append, List.length_singleton, Nat.pow_add]
    have h1 := ih fun x hx => h x (by simp [hx])
    have h2 : digitsValue [c] ≤ 9 := by
      have := h c (by simp)
      simp only [digitsValue, List.foldl_cons, List.foldl_nil]
      omega
    have h3 := Nat.mul_le_mul_right (10 ^ d.length) h2
    omega

/-- C35: the expiry of a number with a fraction is decided exactly; `nbf` and `iat` are off by less than a second. -/
theorem C35_fraction_partial {v : Bytes} {m k : Nat} {n : Int} (h : JDecimal v m k) (h1 : -9223372036854775808 < n)
    (h2 : n < 9223372036854775807) : (n > leadingInt v ↔ n * 10 ^ k > m) ∧ (n < leadingInt v → n * 10 ^ k < m) ∧
      (leadingInt v ≤ n → m < (n + 1) * 10 ^ k) := by
  obtain ⟨int, frac, rfl, hi, hf⟩ := h
  have hl : leadingInt (int ++ frac) = clamp (digitsValue int : Int) := by
    have := leadingInt_number (sgn := []) (rest := frac) (Or.inl rfl) hi (by
      rcases hf with ⟨rfl, -⟩ | ⟨d, rfl, -⟩
      · intro c hc; cases hc
      · intro c hc; cases hc; decide)
    simpa using this
  rw [hl]
  have hm : ∃ b : Nat, m = digitsValue int * 10 ^ k + b ∧ b < 10 ^ k := by
    rcases hf with ⟨-, rfl, rfl⟩ | ⟨d, -, hd, rfl, rfl⟩
    · exact ⟨0, by simp, by simp⟩
    · exact ⟨digitsValue d, digitsValue_append _ _, digitsValue_lt fun c hc => (jdigits_digit hd hc).2⟩
  obtain ⟨b, rfl, hb⟩ := hm
  have hP : (0 : Int) < 10 ^ k := Int.pow_pos (by omega)
  have hcast : ((digitsValue int * 10 ^ k + b : Nat) : Int) = (digitsValue int : Int) * 10 ^ k + b := by push_cast; rfl
  have hb' : (b : Int) < 10 ^ k := by exact_mod_cast hb
  have hb0 : (0 : Int) ≤ b := Int.natCast_nonneg b
  rw [hcast]
  generalize (digitsValue int : Int) = a at *
  generalize (10 : Int) ^ k = P at *
  generalize (b : Int) = c at *
  have hle : ∀ x y : Int, x ≤ y → x * P ≤ y * P := fun x y h => Int.mul_le_mul_of_nonneg_right h (by omega)
  have hs : ∀ x : Int, (x + 1) * P = x * P + P := fun x => by rw [Int.add_mul, Int.one_mul]
  have e1 := hle (a + 1) n
  have e2 := hle n a
  have e3 := hle (n + 1) a
  have e4 := hle (a + 1) (n + 1)
  rw [hs] at e1 e3 e4
  rw [hs] at e4
  rw [hs]
  unfold clamp
  omega

/-- C35 is false: exponents are ignored. -/
theorem C35_exponent {v : Bytes} {m e : Nat} (h : JScientific v m e) : leadingInt v = clamp m := by
  obtain ⟨int, ex, ht, hi, -, rfl, -⟩ := h
  have hr : ∀ c, (c = 101 ∨ c = 69) → leadingInt (int ++ c :: ex) = clamp (digitsValue int) := by
    intro c hc
    have := leadingInt_number (sgn := []) (rest := c :: ex) (Or.inl rfl) hi (by
      intro x hx; cases hx; rcases hc with rfl | rfl <;> decide)
    simpa using this
  rcases ht with rfl | rfl
  · exact hr _ (Or.inl rfl)
  · exact hr _ (Or.inr rfl)

/-- A toy token and decoding parameters that check the time claims. -/
def checkTimes (pay : String) : DecParams :=
  { toyDec (mkTok hdr1 pay (toyMac hdr1 pay)) with validateExp := true, validateNbf := true, validateIat := true }

/-- C35 is false: at time 1000, a token that becomes valid at 10^12 is accepted, and one that expires at 10^12 is not. -/
theorem C35_value_false : verdict (checkTimes "{\"exp\":2000,\"nbf\":1e12,\"iat\":1}") = some (0, some 0) ∧
    verdict (checkTimes "{\"exp\":1e12,\"nbf\":1,\"iat\":1}") = some (0, some 16) := by decide +kernel

example : verdict (checkTimes "{\"exp\":2000,\"nbf\":1,\"iat\":1}") = some (0, some 0) ∧
    verdict (checkTimes "{\"exp\":-2000,\"nbf\":1001,\"iat\":99999999999999999999999}") = some (0, some 112) ∧
    verdict (checkTimes "{\"exp\":999.5,\"nbf\":1000.5,\"iat\":1}") = some (0, some 16) := by decide +kernel

end L8w8jwt
