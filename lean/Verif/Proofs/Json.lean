import Verif.Spec.Json
import Verif.Model.Claim
/-!
# Escaping and the string lexer
-/

namespace L8w8jwt
open Spec

/-- The escaping table agrees with the specification, for all 256 characters. -/
theorem escapeChar_eq (charSigned : Bool) (c : UInt8) (h : charSigned = true → c < 128) :
    escapeChar charSigned c = .ok (escapeByte c) := by
  have key : ∀ (s : Bool) (j : Fin 256), (s = true → UInt8.ofNat j.val < 128) →
      (match escapeChar s (UInt8.ofNat j.val) with | .ok e => e == escapeByte (UInt8.ofNat j.val) | .error _ => false) = true := by
    decide +kernel
  have := key charSigned ⟨c.toNat, c.toNat_lt⟩
  simp only [UInt8.ofNat_toNat] at this
  have := this h
  cases he : escapeChar charSigned c with
  | error e => simp [he] at this
  | ok e => simp [he] at this; rw [this]

theorem escapeChar_bad (c : UInt8) (h : 128 ≤ c) : escapeChar true c = .error .badIndex := by
  have h' : 128 ≤ c.toNat := by have := UInt8.le_iff_toNat_le.mp h; simpa using this
  have := c.toNat_lt
  simp only [escapeChar, charVal, h']
  simp
  omega

theorem hexDigit_hexNib (n : Nat) (h : n < 16) : hexDigit (hexNib n) = some n := by
  have key : ∀ j : Fin 16, hexDigit (hexNib j.val) = some j.val := by decide +kernel
  exact key ⟨n, h⟩

/-- How the lexer proceeds over one escaped character. -/
theorem lexString_escapeByte (c : UInt8) (t : Bytes) :
    lexString (escapeByte c ++ t) = (lexString t).map fun (v, r) => (c :: v, r) := by
  have simple (e x : UInt8) (he : e ≠ 117) (hx : simpleEscape e = some x) :
      lexString ([92, e] ++ t) = (lexString t).map fun (v, r) => (x :: v, r) := by
    simp only [List.cons_append, List.nil_append]
    conv => lhs; unfold lexString
    simp only [show ¬ ((92 : UInt8) = 34) by decide, he, hx, if_false, if_true]
    cases lexString t <;> simp
  by_cases h1 : c = 34
  · subst h1; exact simple 34 34 (by decide) (by decide)
  by_cases h2 : c = 92
  · subst h2; exact simple 92 92 (by decide) (by decide)
  by_cases h3 : c = 47
  · subst h3; exact simple 47 47 (by decide) (by decide)
  by_cases h4 : c = 8
  · subst h4; exact simple 98 8 (by decide) (by decide)
  by_cases h5 : c = 12
  · subst h5; exact simple 102 12 (by decide) (by decide)
  by_cases h6 : c = 10
  · subst h6; exact simple 110 10 (by decide) (by decide)
  by_cases h7 : c = 13
  · subst h7; exact simple 114 13 (by decide) (by decide)
  by_cases h8 : c = 9
  · subst h8; exact simple 116 9 (by decide) (by decide)
  by_cases h9 : c < 32 ∨ c = 127
  · have hlt : c.toNat < 128 := by
      rcases h9 with h | h
      · have := UInt8.lt_iff_toNat_lt.mp h
        have e : (32 : UInt8).toNat = 32 := rfl
        omega
      · subst h; decide
    have he : escapeByte c = [92, 117, 48, 48, hexNib (c.toNat / 16), hexNib (c.toNat % 16)] := by
      simp only [escapeByte, h1, h2, h3, h4, h5, h6, h7, h8, h9, if_false, if_true]; rfl
    rw [he]
    simp only [List.cons_append, List.nil_append]
    have d0 : hexDigit 48 = some 0 := by decide
    conv => lhs; unfold lexString
    simp only [show ¬ ((92 : UInt8) = 34) by decide, if_false, if_true, d0, hexDigit_hexNib _ (show c.toNat / 16 < 16 by omega), hexDigit_hexNib _ (show c.toNat % 16 < 16 by omega)]
    have hu : utf8 (0 * 4096 + 0 * 256 + c.toNat / 16 * 16 + c.toNat % 16) = [c] := by
      rw [show 0 * 4096 + 0 * 256 + c.toNat / 16 * 16 + c.toNat % 16 = c.toNat by omega]
      simp [utf8, hlt]
    cases lexString t with
    | none => simp
    | some x => simp only [hu]; simp
  · have he : escapeByte c = [c] := by
      simp only [escapeByte, h1, h2, h3, h4, h5, h6, h7, h8, h9, if_false]
    rw [he]
    simp only [List.cons_append, List.nil_append]
    conv => lhs; unfold lexString
    simp only [h1, h2, if_false]
    rw [if_neg (fun h => h9 (Or.inl h))]

/-- The lexer reads an escaped string back, up to the closing quotation mark and not further. -/
theorem lexString_escape (s rest : Bytes) : lexString (escape s ++ 34 :: rest) = some (s, rest) := by
  induction s with
  | nil =>
    show lexString (34 :: rest) = _
    unfold lexString; simp
  | cons c t ih =>
    simp only [escape, List.flatMap_cons, List.append_assoc] at *
    rw [lexString_escapeByte, ih]; rfl

end L8w8jwt
