import Verif.Spec.JsonText
import Verif.Spec.Claim
import Verif.Proofs.Json
/-!
# Facts about the JSON grammar
-/

namespace L8w8jwt
open Spec

theorem jmembers_text {t : Bytes} {l : List (Bytes × Bytes)} (h : JMembers t l) : JText .members t := by
  induction h with
  | mem a k b c v d => exact .mem a k b c v d
  | mems a k b c v d _ ih => exact .mems a k b c v d ih

theorem jws_nil : JWs [] := fun _ h => by cases h

theorem jStr_escape (s : Bytes) : JStr (escape s) := ⟨s, lexString_escape s []⟩

/-! ## A necessary condition: no opening quotation mark directly after a closing one -/

/-- States of the scanner: outside strings, inside, after a backslash, directly after a closing quotation mark. -/
inductive Scan where
  | out | inside | esc | closed
  deriving DecidableEq

def Scan.step (s : Scan) (c : UInt8) : Option Scan :=
  match s with
  | .out => some (if c = 34 then .inside else .out)
  | .inside => some (if c = 34 then .closed else if c = 92 then .esc else .inside)
  | .esc => some .inside
  | .closed => if c = 34 then none else some .out

def scan (s : Scan) : Bytes → Option Scan
  | [] => some s
  | c :: t => (s.step c).bind (scan · t)

theorem scan_append (s : Scan) (a b : Bytes) : scan s (a ++ b) = (scan s a).bind (scan · b) := by
  induction a generalizing s with
  | nil => rfl
  | cons c t ih =>
    simp only [List.cons_append, scan]
    cases s.step c with
    | none => rfl
    | some s' => exact ih s'

theorem hexDigit_plain (c : UInt8) (n : Nat) (h : hexDigit c = some n) : c ≠ 34 ∧ c ≠ 92 := by
  constructor <;> rintro rfl <;> revert h <;> decide +revert

/-- The bodies of strings, as a grammar. -/
inductive Body : Bytes → Prop where
  | nil : Body []
  | plain {c t} : c ≠ 34 → c ≠ 92 → ¬ c < 32 → Body t → Body (c :: t)
  | simple {e x t} : simpleEscape e = some x → e ≠ 117 → Body t → Body (92 :: e :: t)
  | hex {w x y z a b c d t} : hexDigit w = some a → hexDigit x = some b → hexDigit y = some c → hexDigit z = some d →
      Body t → Body (92 :: 117 :: w :: x :: y :: z :: t)

theorem body_lexString (t v r : Bytes) (h : lexString t = some (v, r)) : ∃ body, t = body ++ 34 :: r ∧ Body body := by
  fun_induction lexString t generalizing v r with
  | case2 t => simp at h; obtain ⟨-, rfl⟩ := h; exact ⟨[], rfl, .nil⟩
  | case4 w x y z t a b c d v' r' e1 e2 e3 e4 e5 _ ih =>
    simp at h
    obtain ⟨body, e, hb⟩ := ih v' r' e1
    rw [h.2] at e
    exact ⟨92 :: 117 :: w :: x :: y :: z :: body, by simp [e], .hex e5 e4 e3 e2 hb⟩
  | case7 e t hne x v' r' e1 e2 _ ih =>
    simp at h
    obtain ⟨body, e', hb⟩ := ih v' r' e1
    rw [h.2] at e'
    exact ⟨92 :: e :: body, by simp [e'], .simple e2 hne hb⟩
  | case10 c t h1 h2 h3 ih =>
    cases hl : lexString t with
    | none => rw [hl] at h; cases h
    | some p =>
      obtain ⟨v', r'⟩ := p
      rw [hl] at h
      simp at h
      obtain ⟨body, e', hb⟩ := ih v' r' hl
      rw [h.2] at e'
      exact ⟨c :: body, by simp [e'], .plain h1 h2 h3 hb⟩
  | _ => cases h

theorem jstr_body {t : Bytes} (h : JStr t) : Body t := by
  obtain ⟨v, hv⟩ := h
  obtain ⟨b, e, hb⟩ := body_lexString _ _ _ hv
  have : t = b := List.append_cancel_right e
  rw [this]; exact hb

theorem Body.scan {t : Bytes} (h : Body t) : scan .inside t = some .inside := by
  induction h with
  | nil => rfl
  | plain h1 h2 _ _ ih => simp [L8w8jwt.scan, Scan.step, h1, h2, ih]
  | simple _ _ _ ih => simp [L8w8jwt.scan, Scan.step, ih]
  | hex e1 e2 e3 e4 _ ih =>
    have h1 := hexDigit_plain _ _ e1
    have h2 := hexDigit_plain _ _ e2
    have h3 := hexDigit_plain _ _ e3
    have h4 := hexDigit_plain _ _ e4
    simp [L8w8jwt.scan, Scan.step, h1, h2, h3, h4, ih]

/-- The scanner stays outside strings. -/
def Scan.done (o : Option Scan) : Prop := o = some .out ∨ o = some .closed

theorem scan_noquote (s : Scan) (hs : s = .out ∨ s = .closed) (t : Bytes) (h : ∀ c ∈ t, c ≠ 34) : Scan.done (scan s t) := by
  induction t generalizing s with
  | nil => rcases hs with rfl | rfl <;> simp [scan, Scan.done]
  | cons c t ih =>
    have hc := h c (by simp)
    have : s.step c = some .out := by rcases hs with rfl | rfl <;> simp [Scan.step, hc]
    simp only [scan, this]
    exact ih .out (Or.inl rfl) (fun c hc => h c (by simp [hc]))

theorem scan_out (s : Scan) (hs : s = .out ∨ s = .closed) (c : UInt8) (t : Bytes) (hc : c ≠ 34) :
    scan s (c :: t) = scan .out t := by
  rcases hs with rfl | rfl <;> simp [scan, Scan.step, hc]

/-- Whitespace before anything else. -/
theorem scan_ws (s : Scan) (w t : Bytes) (hw : JWs w) (P : Option Scan → Prop)
    (h : ∀ s', (s' = s ∨ s' = .out) → P (scan s' t)) (hs : s = .out ∨ s = .closed) : P (scan s (w ++ t)) := by
  induction w generalizing s with
  | nil => exact h s (Or.inl rfl)
  | cons c w ih =>
    have hc : c ≠ 34 := by rcases hw c (by simp) with h | h | h | h <;> rw [h] <;> decide
    rw [List.cons_append, scan_out s hs c _ hc]
    exact ih .out (fun c hc => hw c (by simp [hc])) (fun s' hs' => h s' (Or.inr (by simpa using hs'))) (Or.inl rfl)

theorem scan_done_append (s : Scan) (a b : Bytes) (ha : Scan.done (scan s a)) (P : Option Scan → Prop)
    (h : ∀ s', (s' = .out ∨ s' = .closed) → P (scan s' b)) : P (scan s (a ++ b)) := by
  rw [scan_append]
  rcases ha with e | e <;> rw [e]
  · exact h _ (Or.inl rfl)
  · exact h _ (Or.inr rfl)

theorem scan_str (k t : Bytes) (hk : JStr k) : scan .out (34 :: (k ++ 34 :: t)) = scan .closed t := by
  have : scan .out (34 :: (k ++ 34 :: t)) = scan .inside (k ++ 34 :: t) := rfl
  rw [this, scan_append, (jstr_body hk).scan]
  simp [scan, Scan.step]

theorem digits_noquote (t : Bytes) (h : JDigits t) : ∀ c ∈ t, c ≠ 34 := by
  rintro c hc rfl
  have := (h.2 _ hc).1
  revert this; decide

theorem jNum_noquote (t : Bytes) (h : JNum t) : ∀ c ∈ t, c ≠ 34 := by
  obtain ⟨sgn, int, frac, ex, rfl, h1, h2, h3, h4⟩ := h
  intro c hc
  simp only [List.mem_append] at hc
  rcases hc with ((hc | hc) | hc) | hc
  · rcases h1 with rfl | rfl
    · cases hc
    · simp at hc; rw [hc]; decide
  · rcases h2 with rfl | ⟨hd, -⟩
    · simp at hc; rw [hc]; decide
    · exact digits_noquote _ hd c hc
  · rcases h3 with rfl | ⟨d, rfl, hd⟩
    · cases hc
    · simp at hc
      rcases hc with rfl | hc
      · decide
      · exact digits_noquote _ hd c hc
  · rcases h4 with rfl | ⟨e, s, d, rfl, he, hs, hd⟩
    · cases hc
    · simp only [List.mem_cons, List.mem_append] at hc
      rcases hc with rfl | hc | hc
      · rcases he with rfl | rfl <;> decide
      · rcases hs with rfl | rfl | rfl
        · cases hc
        · simp at hc; rw [hc]; decide
        · simp at hc; rw [hc]; decide
      · exact digits_noquote _ hd c hc

theorem jws_noquote {w : Bytes} (hw : JWs w) : ∀ c ∈ w, c ≠ 34 := fun c hc => by
  rcases hw c hc with h | h | h | h <;> rw [h] <;> decide

theorem done_out : Scan.done (scan .out []) := Or.inl rfl

/-- In a JSON text no string starts directly after another one. -/
theorem jtext_scan {k : JKind} {t : Bytes} (h : JText k t) : Scan.done (scan .out t) := by
  induction h with
  | str h => rw [scan_str _ [] h]; exact Or.inr rfl
  | num h => exact scan_noquote _ (Or.inl rfl) _ (jNum_noquote _ h)
  | lit h =>
    simp only [List.mem_cons, List.not_mem_nil, or_false] at h
    rcases h with rfl | rfl | rfl <;> exact scan_noquote _ (Or.inl rfl) _ (by decide)
  | arr0 h =>
    rw [scan_out _ (Or.inl rfl) _ _ (by decide)]
    exact scan_ws _ _ _ h _ (fun s' hs => by rw [scan_out s' (Or.inl (by simpa using hs)) _ _ (by decide)]; exact done_out) (Or.inl rfl)
  | arr _ ih =>
    rw [scan_out _ (Or.inl rfl) _ _ (by decide)]
    exact scan_done_append _ _ _ ih _ fun s' hs => by rw [scan_out s' hs _ _ (by decide)]; exact done_out
  | obj0 h =>
    rw [scan_out _ (Or.inl rfl) _ _ (by decide)]
    exact scan_ws _ _ _ h _ (fun s' hs => by rw [scan_out s' (Or.inl (by simpa using hs)) _ _ (by decide)]; exact done_out) (Or.inl rfl)
  | obj _ ih =>
    rw [scan_out _ (Or.inl rfl) _ _ (by decide)]
    exact scan_done_append _ _ _ ih _ fun s' hs => by rw [scan_out s' hs _ _ (by decide)]; exact done_out
  | elem ha _ hb ih =>
    rw [List.append_assoc]
    refine scan_ws _ _ _ ha _ (fun s' hs => ?_) (Or.inl rfl)
    obtain rfl : s' = .out := by simpa using hs
    exact scan_done_append _ _ _ ih _ fun s' hs => scan_noquote _ hs _ (jws_noquote hb)
  | elems ha _ hb _ ih ih2 =>
    rw [List.append_assoc, List.append_assoc]
    refine scan_ws _ _ _ ha _ (fun s' hs => ?_) (Or.inl rfl)
    obtain rfl : s' = .out := by simpa using hs
    refine scan_done_append _ _ _ ih _ fun s' hs => ?_
    refine scan_done_append _ _ _ (scan_noquote _ hs _ (jws_noquote hb)) _ fun s' hs => ?_
    rw [scan_out s' hs _ _ (by decide)]
    exact ih2
  | mem ha hk hb hc _ hd ih =>
    refine scan_ws _ _ _ ha _ (fun s' hs => ?_) (Or.inl rfl)
    obtain rfl : s' = .out := by simpa using hs
    rw [scan_str _ _ hk]
    refine scan_done_append _ _ _ (scan_noquote _ (Or.inr rfl) _ (jws_noquote hb)) _ fun s' hs => ?_
    rw [scan_out s' hs _ _ (by decide), List.append_assoc]
    refine scan_ws _ _ _ hc _ (fun s' hs => ?_) (Or.inl rfl)
    obtain rfl : s' = .out := by simpa using hs
    exact scan_done_append _ _ _ ih _ fun s' hs => scan_noquote _ hs _ (jws_noquote hd)
  | mems ha hk hb hc _ hd _ ih ih2 =>
    refine scan_ws _ _ _ ha _ (fun s' hs => ?_) (Or.inl rfl)
    obtain rfl : s' = .out := by simpa using hs
    rw [scan_str _ _ hk]
    refine scan_done_append _ _ _ (scan_noquote _ (Or.inr rfl) _ (jws_noquote hb)) _ fun s' hs => ?_
    rw [scan_out s' hs _ _ (by decide), List.append_assoc, List.append_assoc]
    refine scan_ws _ _ _ hc _ (fun s' hs => ?_) (Or.inl rfl)
    obtain rfl : s' = .out := by simpa using hs
    refine scan_done_append _ _ _ ih _ fun s' hs => ?_
    refine scan_done_append _ _ _ (scan_noquote _ hs _ (jws_noquote hd)) _ fun s' hs => ?_
    rw [scan_out s' hs _ _ (by decide)]
    exact ih2

end L8w8jwt
