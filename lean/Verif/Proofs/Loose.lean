import Verif.Proofs.JsmnClaims
import Verif.Spec.Loose
/-!
# The tokenizer and the claims loop on relaxed JSON
-/

namespace L8w8jwt
open Spec

variable {env : Env}

/-! ## Characters -/

theorem byte_all {P : UInt8 → Prop} (h : ∀ j : Fin 256, P (UInt8.ofNat j.val)) (c : UInt8) : P c := by
  have := h ⟨c.toNat, c.toNat_lt⟩
  simpa only [UInt8.ofNat_toNat] using this

theorem primStop_eq (c : UInt8) : primStop c = stopChar c := by
  revert c; exact byte_all (P := fun c => primStop c = stopChar c) (by decide +kernel)

theorem gap_cases {c : UInt8} (h : gapChar c = true) : c = 32 ∨ c = 9 ∨ c = 10 ∨ c = 13 ∨ c = 58 ∨ c = 44 := by
  simp only [gapChar, Bool.or_eq_true, beq_iff_eq] at h
  rcases h with ((((h | h) | h) | h) | h) | h <;> simp [h]

theorem isHex_eq (c : UInt8) : isHex c = (hexDigit c).isSome := by
  revert c; exact byte_all (P := fun c => isHex c = (hexDigit c).isSome) (by decide +kernel)

theorem escOk_eq (c : UInt8) : escOk c = (simpleEscape c).isSome := by
  revert c; exact byte_all (P := fun c => escOk c = (simpleEscape c).isSome) (by decide +kernel)

theorem wordChar_facts {c : UInt8} (h : wordChar c = true) : primStop c = false ∧ ¬ (c < 32 ∨ 127 ≤ c) := by
  simp only [wordChar, Bool.and_eq_true, Bool.not_eq_true', decide_eq_true_eq] at h
  refine ⟨by rw [primStop_eq]; exact h.1.1, ?_⟩
  rintro (h' | h')
  · exact absurd h.1.2 (UInt8.not_le.mpr h')
  · exact absurd h.2 (UInt8.not_lt.mpr h')

theorem wordChar_of {c : UInt8} (h1 : primStop c = false) (h2 : ¬ (c < 32 ∨ 127 ≤ c)) : wordChar c = true := by
  simp only [wordChar, Bool.and_eq_true, Bool.not_eq_true', decide_eq_true_eq]
  rw [← primStop_eq]
  refine ⟨⟨h1, ?_⟩, ?_⟩
  · exact UInt8.not_lt.mp (fun h => h2 (Or.inl h))
  · exact UInt8.not_le.mp (fun h => h2 (Or.inr h))

/-! ## Strings and words -/

theorem quoted_run (cap : Option Nat) {t : Bytes} (h : Quoted t) (pos a : Nat) (st : JState) :
    jRun cap t pos (.str a .plain) st = .ok (.str a .plain, st) := by
  induction h generalizing pos with
  | nil => rfl
  | plain h1 h2 _ ih => simp [jRun, jStep, h1, h2, ih]
  | @esc e t h1 _ ih =>
    have : escOk e = true := by rw [escOk_eq]; exact h1
    simp [jRun, jStep, this, ih]
  | @hex w x y z t e1 e2 e3 e4 _ ih =>
    rw [← isHex_eq] at e1 e2 e3 e4
    simp [jRun, jStep, show escOk 117 = false from rfl, e1, e2, e3, e4, ih]

theorem word_tail (cap : Option Nat) {t : Bytes} (h : ∀ c ∈ t, wordChar c = true) (pos a : Nat) (st : JState) :
    jRun cap t pos (.prim a) st = .ok (.prim a, st) := by
  induction t generalizing pos with
  | nil => rfl
  | cons c t ih =>
    obtain ⟨h1, h2⟩ := wordChar_facts (h c (by simp))
    simp only [jRun, jStep, h1, Bool.false_eq_true, if_false, if_neg h2]
    exact ih (fun x hx => h x (by simp [hx])) _

theorem jMain_word (cap : Option Nat) {c : UInt8} (h : wordChar c = true) (h1 : c ≠ 34) (h2 : c ≠ 91) (h3 : c ≠ 123) (pos : Nat) (st : JState) :
    jMain cap c pos st = .ok (.prim pos, st) := by
  obtain ⟨hs, hp⟩ := wordChar_facts h
  simp only [primStop, Bool.or_eq_false_iff, decide_eq_false_iff_not] at hs
  obtain ⟨⟨⟨⟨⟨⟨⟨s1, s2⟩, s3⟩, s4⟩, s5⟩, s6⟩, s7⟩, s8⟩ := hs
  unfold jMain
  rw [if_neg (by simp [h2, h3]), if_neg (by simp [s7, s8]), if_neg h1, if_neg (by simp [s1, s2, s3, s4, s5, s6]), if_neg hp]

theorem word_run (cap : Option Nat) {w : Bytes} (h : Word w) (pos : Nat) (st : JState) :
    jRun cap w pos .main st = .ok (.prim pos, st) := by
  obtain ⟨c, t, rfl, h1, h2, h3, h4, h5⟩ := h
  simp only [jRun, jStep, jMain_word cap h1 h2 h3 h4]
  exact word_tail cap h5 _ _ _

theorem word_ne {w : Bytes} (h : Word w) : w ≠ [] := by
  obtain ⟨c, t, rfl, -⟩ := h
  simp

theorem word_head {w : Bytes} (h : Word w) : w.head? ≠ some 34 ∧ w.head? ≠ some 91 ∧ w.head? ≠ some 123 := by
  obtain ⟨c, t, rfl, -, h2, h3, h4, -⟩ := h
  simp [h2, h3, h4]

theorem word_chars {w : Bytes} (h : Word w) : ∀ c ∈ w, wordChar c = true := by
  obtain ⟨c, t, rfl, h1, -, -, -, h5⟩ := h
  intro x hx
  rcases List.mem_cons.mp hx with rfl | hx
  · exact h1
  · exact h5 x hx

/-! ## Tokens of a sequence of items -/

/-- The text produces these tokens (oldest first), also after a word if it starts with something that ends the word. -/
structure RunsAt (t : Bytes) (pos : Nat) (toks : List Tok) : Prop where
  run : ∀ cap l m st, At cap pos l m st → (m = .main ∨ Stops t) → l.length + toks.length ≤ cap →
    ∃ m' st', jRun (some cap) t pos m st = .ok (m', st') ∧ At cap (pos + t.length) (toks.reverse ++ l) m' st'
  ends : ∀ x ∈ toks, 0 ≤ x.end_ ∧ x.end_ ≤ (pos + t.length : Nat)

theorem RunsAt.loop {t : Bytes} {toks : List Tok} (h : RunsAt t 0 toks) (h0 : 0 ∉ t) : jsmnCount t = .ok toks.length ∧
    ∀ cap, toks.length ≤ cap → jsmnParse t cap = .ok (toks.length, toks) := by
  refine runs_loop ⟨fun cap l hc => ?_, h.ends, h0⟩
  exact h.run cap l .main (S l) (At.main _ _ _) (Or.inl rfl) hc

/-- The text behind an item does not make it one of `true`, `false`, `null`. -/
def Ends (q : Bytes) : Prop := ∃ c q', q = c :: q' ∧ letter c = false

/-- What kind of item the text is. -/
def ItemText (v q : Bytes) : Prop := (∃ b, Quoted b ∧ v = 34 :: (b ++ [34])) ∨ (Word v ∧ Ends q) ∨ composite v = true

/-- The tokens of items: the head of each, and nested ones. -/
inductive ItemToks (json : Bytes) : Nat → List Item → List Tok → Prop where
  | nil {lo} : ItemToks json lo [] []
  | cons {lo size : Nat} {p v q : Bytes} {nested ts : List Tok} {l : List Item} : json = p ++ (v ++ q) → lo ≤ p.length → ItemText v q → nested.length + 1 = size →
      (∀ x ∈ nested, 0 ≤ x.end_ ∧ x.end_ ≤ (p.length + v.length : Nat)) → (composite v = false → nested = []) →
      ItemToks json (p.length + v.length) l ts →
      ItemToks json lo (⟨v, size⟩ :: l) (headTok p.length v :: (nested ++ ts))

theorem ItemToks.mono {json : Bytes} {lo lo' : Nat} {l : List Item} {ts : List Tok} (h : ItemToks json lo l ts) (hl : lo' ≤ lo) :
    ItemToks json lo' l ts := by
  cases h with
  | nil => exact .nil
  | cons a b c d e f g => exact .cons a (Nat.le_trans hl b) c d e f g

theorem not_stops {c : UInt8} {t : Bytes} {m : JMode} (hc : stopChar c = false) (h : m = .main ∨ Stops (c :: t)) : m = .main := by
  rcases h with h | h
  · exact h
  · have := h c rfl
    rw [hc] at this
    cases this

theorem RunsAt.nil (pos : Nat) : RunsAt [] pos [] := by
  refine ⟨fun cap l m st ha _ _ => ⟨m, st, rfl, by simpa using ha⟩, fun x hx => (nomatch hx)⟩

theorem RunsAt.gap {c : UInt8} {t : Bytes} {pos : Nat} {toks : List Tok} (hc : gapChar c = true) (h : RunsAt t (pos + 1) toks) :
    RunsAt (c :: t) pos toks := by
  refine ⟨fun cap l m st ha _ hl => ?_, fun x hx => ?_⟩
  · rw [ha.skip (gap_cases hc)]
    obtain ⟨m', st', e, ha'⟩ := h.run cap l .main (S l) (At.main _ _ _) (Or.inl rfl) hl
    refine ⟨m', st', e, ?_⟩
    rw [List.length_cons]
    rwa [show pos + (t.length + 1) = pos + 1 + t.length by omega]
  · have := h.ends x hx
    rw [List.length_cons]
    omega

theorem RunsAt.string {b t : Bytes} {pos : Nat} {toks : List Tok} (hb : Quoted b) (h : RunsAt t (pos + (b.length + 2)) toks) :
    RunsAt (34 :: (b ++ 34 :: t)) pos (⟨.string, (pos + 1 : Nat), (pos + 1 + b.length : Nat)⟩ :: toks) := by
  refine ⟨fun cap l m st ha hm hl => ?_, fun x hx => ?_⟩
  · have := not_stops (by decide) hm
    subst this
    have := ha.eq_main
    subst this
    rw [List.length_cons] at hl
    have h2 : jRun (some cap) (34 :: (b ++ 34 :: t)) pos .main (S l) = jRun (some cap) (b ++ 34 :: t) (pos + 1) (.str (pos + 1) .plain) (S l) := rfl
    have h3 : jRun (some cap) (34 :: t) (pos + 1 + b.length) (.str (pos + 1) .plain) (S l) =
        jRun (some cap) t (pos + 1 + b.length + 1) .main (S (⟨.string, (pos + 1 : Nat), (pos + 1 + b.length : Nat)⟩ :: l)) := by
      simp only [jRun, jStep, if_true, jAlloc_S (show l.length < cap by omega)]
    rw [h2, jRun_append (quoted_run _ hb _ _ _), h3]
    obtain ⟨m', st', e, ha'⟩ := h.run cap (⟨.string, (pos + 1 : Nat), (pos + 1 + b.length : Nat)⟩ :: l) .main _ (At.main _ _ _) (Or.inl rfl)
      (by simp; omega)
    refine ⟨m', st', ?_, ?_⟩
    · rwa [show pos + 1 + b.length + 1 = pos + (b.length + 2) by omega]
    · simp only [List.length_cons, List.length_append, List.reverse_cons, List.append_assoc, List.singleton_append]
      rwa [show pos + (b.length + (t.length + 1) + 1) = pos + (b.length + 2) + t.length by omega]
  · simp only [List.length_cons, List.length_append]
    rcases List.mem_cons.mp hx with rfl | hx
    · simp only; omega
    · have := h.ends x hx; omega

theorem RunsAt.word {w t : Bytes} {pos : Nat} {toks : List Tok} (hw : Word w) (hs : Stops t) (h : RunsAt t (pos + w.length) toks) :
    RunsAt (w ++ t) pos (⟨.primitive, pos, (pos + w.length : Nat)⟩ :: toks) := by
  refine ⟨fun cap l m st ha hm hl => ?_, fun x hx => ?_⟩
  · have hm' : m = .main := by
      obtain ⟨c, w', rfl, hc, -⟩ := hw
      refine not_stops (c := c) ?_ hm
      have := (wordChar_facts hc).1
      rwa [primStop_eq] at this
    subst hm'
    have := ha.eq_main
    subst this
    rw [List.length_cons] at hl
    rw [jRun_append (word_run _ hw _ _)]
    obtain ⟨m', st', e, ha'⟩ := h.run cap (⟨.primitive, pos, (pos + w.length : Nat)⟩ :: l) (.prim pos) (S l)
      (Or.inr ⟨pos, l, rfl, rfl, rfl, by omega⟩) (Or.inr hs) (by simp; omega)
    refine ⟨m', st', e, ?_⟩
    simp only [List.length_append, List.reverse_cons, List.append_assoc, List.singleton_append]
    rwa [show pos + (w.length + t.length) = pos + w.length + t.length by omega]
  · simp only [List.length_append]
    rcases List.mem_cons.mp hx with rfl | hx
    · simp only; omega
    · have := h.ends x hx; omega

theorem RunsAt.group {a t : Bytes} {pos : Nat} {x y : List Tok} (isObj : Bool) (ha : RunsAt a (pos + 1) x)
    (ht : RunsAt t (pos + (a.length + 2)) y) :
    RunsAt ((if isObj then 123 else 91) :: (a ++ (if isObj then 125 else 93) :: t)) pos
      (⟨if isObj then .object else .array, pos, (pos + (a.length + 2) : Nat)⟩ :: (x ++ y)) := by
  refine ⟨fun cap l m st hat hm hl => ?_, fun z hz => ?_⟩
  · have := not_stops (by cases isObj <;> decide) hm
    subst this
    have := hat.eq_main
    subst this
    simp only [List.length_cons, List.length_append] at hl
    obtain ⟨m1, st1, e1, ha1⟩ := ha.run cap (⟨if isObj then .object else .array, pos, -1⟩ :: l) .main _ (At.main _ _ _) (Or.inl rfl) (by simp; omega)
    obtain ⟨m2, st2, e2, ha2⟩ := ht.run cap (x.reverse ++ ⟨if isObj then .object else .array, pos, (pos + (a.length + 2) : Nat)⟩ :: l) .main _
      (At.main _ _ _) (Or.inl rfl) (by simp; omega)
    refine ⟨m2, st2, ?_, ?_⟩
    · have h1 : jRun (some cap) ((if isObj then 123 else 91) :: (a ++ (if isObj then 125 else 93) :: t)) pos .main (S l) =
          jRun (some cap) (a ++ (if isObj then 125 else 93) :: t) (pos + 1) .main (S (⟨if isObj then .object else .array, pos, -1⟩ :: l)) := by
        cases isObj <;> simp [jRun, jStep, jMain, jAlloc_S (show l.length < cap by omega)]
      have h2 : primStop (if isObj then 125 else 93) = true := by cases isObj <;> rfl
      rw [h1, jRun_append e1]
      simp only [jRun, ha1.step h2]
      have hcl := jClose_skip (type := if isObj then .object else .array) (e := pos + 1 + a.length + 1) (a := x.reverse) (l := l)
        (fun x hx => (ha.ends x (by simpa using hx)).1) pos
      have h3 : jMain (some cap) (if isObj then 125 else 93) (pos + 1 + a.length) (S (x.reverse ++ ⟨if isObj then .object else .array, pos, -1⟩ :: l)) =
          .ok (.main, S (x.reverse ++ ⟨if isObj then .object else .array, pos, (pos + 1 + a.length + 1 : Nat)⟩ :: l)) := by
        cases isObj
        · simp only [jMain, S]
          simp only [Bool.false_eq_true, if_false] at hcl ⊢
          simp [hcl]
        · simp only [jMain, S]
          simp only [if_true] at hcl ⊢
          simp [hcl]
      rw [h3, show pos + 1 + a.length + 1 = pos + (a.length + 2) by omega]
      exact e2
    · simp only [List.length_cons, List.length_append, List.reverse_cons, List.reverse_append, List.append_assoc, List.singleton_append]
      rwa [show pos + (a.length + (t.length + 1) + 1) = pos + (a.length + 2) + t.length by omega]
  · simp only [List.length_cons, List.length_append]
    rcases List.mem_cons.mp hz with rfl | hz
    · simp only; omega
    · rcases List.mem_append.mp hz with hz | hz
      · have := ha.ends z hz; omega
      · have := ht.ends z hz; omega

theorem total_cons (i : Item) (l : List Item) : total (i :: l) = i.size + total l := by simp [total]

theorem stop_letter {c : UInt8} (h : stopChar c = true) : letter c = false := by
  have : ∀ c : UInt8, (!stopChar c || !letter c) = true := byte_all (by decide +kernel)
  have := this c
  rw [h] at this
  simpa using this

theorem stops_ends {t q : Bytes} (h : Stops t) (hq : t = [] → Ends q) : Ends (t ++ q) := by
  cases t with
  | nil => exact hq rfl
  | cons c t => exact ⟨c, t ++ q, rfl, stop_letter (h c rfl)⟩

/-- If the text ends with a word, then what follows does not continue it to `true`, `false` or `null`. -/
def Sharp (t q : Bytes) : Prop := ∀ u w, t = u ++ w → Word w → Ends q

theorem Ends.sharp {q : Bytes} (h : Ends q) (t : Bytes) : Sharp t q := fun _ _ _ _ => h

theorem Sharp.suffix {x t q : Bytes} (h : Sharp (x ++ t) q) : Sharp t q := by
  intro u w e hw
  exact h (x ++ u) w (by rw [e, List.append_assoc]) hw

/-- The tokens of a sequence of items. -/
theorem items_toks {t : Bytes} {l : List Item} (h : Items t l) (p q : Bytes) (hq : Sharp t q) :
    ∃ toks, toks.length = total l ∧ RunsAt t p.length toks ∧ ItemToks (p ++ (t ++ q)) p.length l toks := by
  induction h generalizing p q with
  | nil => exact ⟨[], rfl, RunsAt.nil _, .nil⟩
  | @gap c t l hc _ ih =>
    obtain ⟨toks, h1, h2, h3⟩ := ih (p ++ [c]) q (Sharp.suffix (x := [c]) hq)
    rw [List.length_append, List.length_singleton] at h2 h3
    refine ⟨toks, h1, h2.gap hc, ?_⟩
    simp only [List.append_assoc, List.singleton_append] at h3
    exact h3.mono (Nat.le_succ _)
  | @string b t l hb _ ih =>
    obtain ⟨toks, h1, h2, h3⟩ := ih (p ++ 34 :: (b ++ [34])) q (Sharp.suffix (x := 34 :: (b ++ [34])) (by simpa using hq))
    have hlen : (p ++ 34 :: (b ++ [34])).length = p.length + (b.length + 2) := by simp
    rw [hlen] at h2 h3
    refine ⟨_ :: toks, by rw [List.length_cons, total_cons, h1]; simp; omega, h2.string hb, ?_⟩
    have := ItemToks.cons (json := p ++ (34 :: (b ++ 34 :: t) ++ q)) (lo := p.length) (p := p) (v := 34 :: (b ++ [34])) (q := t ++ q)
      (size := 1) (nested := []) (l := l) (ts := toks) (by simp) (Nat.le_refl _) (Or.inl ⟨b, hb, rfl⟩) rfl (fun x hx => (nomatch hx))
      (fun _ => rfl) (by
        simp only [List.append_assoc, List.cons_append, List.nil_append, List.length_cons, List.length_append, List.length_nil] at h3 ⊢
        exact h3)
    have hh : headTok p.length (34 :: (b ++ [34])) = ⟨.string, (p.length + 1 : Nat), (p.length + 1 + b.length : Nat)⟩ := by
      simp only [headTok, List.head?_cons, if_true, List.length_cons, List.length_append, List.length_nil]
      congr 1
      omega
    rw [hh] at this
    exact this
  | @word w t l hw hs _ ih =>
    obtain ⟨toks, h1, h2, h3⟩ := ih (p ++ w) q hq.suffix
    rw [List.length_append] at h2 h3
    refine ⟨_ :: toks, by rw [List.length_cons, total_cons, h1]; simp; omega, h2.word hw hs, ?_⟩
    obtain ⟨n1, n2, n3⟩ := word_head hw
    have := ItemToks.cons (json := p ++ (w ++ t ++ q)) (lo := p.length) (p := p) (v := w) (q := t ++ q)
      (size := 1) (nested := []) (l := l) (ts := toks) (by simp) (Nat.le_refl _) (Or.inr (Or.inl ⟨hw, stops_ends hs (fun e => hq [] w (by rw [e]; simp) hw)⟩)) rfl
      (fun x hx => (nomatch hx)) (fun _ => rfl) (by simpa using h3)
    have hh : headTok p.length w = ⟨.primitive, p.length, (p.length + w.length : Nat)⟩ := by
      simp only [headTok, if_neg n1, if_neg n2, if_neg n3]
    rw [hh] at this
    exact this
  | @array a t k l _ _ iha iht =>
    obtain ⟨x, x1, x2, -⟩ := iha (p ++ [91]) (93 :: (t ++ q)) (Ends.sharp ⟨93, _, rfl, rfl⟩ _)
    obtain ⟨y, y1, y2, y3⟩ := iht (p ++ 91 :: (a ++ [93])) q (Sharp.suffix (x := 91 :: (a ++ [93])) (by simpa using hq))
    rw [List.length_append, List.length_singleton] at x2
    have hlen : (p ++ 91 :: (a ++ [93])).length = p.length + (a.length + 2) := by simp
    rw [hlen] at y2 y3
    refine ⟨_ :: (x ++ y), by rw [List.length_cons, List.length_append, total_cons, x1, y1]; simp only; omega, RunsAt.group false x2 y2, ?_⟩
    have hz : ∀ z ∈ x, 0 ≤ z.end_ ∧ z.end_ ≤ (p.length + (91 :: (a ++ [93]) : Bytes).length : Nat) := by
      intro z hz
      have := x2.ends z hz
      simp only [List.length_cons, List.length_append, List.length_nil]
      omega
    have := ItemToks.cons (json := p ++ (91 :: (a ++ 93 :: t) ++ q)) (lo := p.length) (p := p) (v := 91 :: (a ++ [93])) (q := t ++ q)
      (size := 1 + total k) (nested := x) (l := l) (ts := y) (by simp) (Nat.le_refl _) (Or.inr (Or.inr rfl)) (by omega)
      hz (fun h => (nomatch h)) (by
        simp only [List.append_assoc, List.cons_append, List.nil_append, List.length_cons, List.length_append, List.length_nil] at y3 ⊢
        exact y3)
    have hh : headTok p.length (91 :: (a ++ [93])) = ⟨.array, p.length, (p.length + (a.length + 2) : Nat)⟩ := by
      simp [headTok]; omega
    rw [hh] at this
    exact this
  | @object a t k l _ _ iha iht =>
    obtain ⟨x, x1, x2, -⟩ := iha (p ++ [123]) (125 :: (t ++ q)) (Ends.sharp ⟨125, _, rfl, rfl⟩ _)
    obtain ⟨y, y1, y2, y3⟩ := iht (p ++ 123 :: (a ++ [125])) q (Sharp.suffix (x := 123 :: (a ++ [125])) (by simpa using hq))
    rw [List.length_append, List.length_singleton] at x2
    have hlen : (p ++ 123 :: (a ++ [125])).length = p.length + (a.length + 2) := by simp
    rw [hlen] at y2 y3
    refine ⟨_ :: (x ++ y), by rw [List.length_cons, List.length_append, total_cons, x1, y1]; simp only; omega, RunsAt.group true x2 y2, ?_⟩
    have hz : ∀ z ∈ x, 0 ≤ z.end_ ∧ z.end_ ≤ (p.length + (123 :: (a ++ [125]) : Bytes).length : Nat) := by
      intro z hz
      have := x2.ends z hz
      simp only [List.length_cons, List.length_append, List.length_nil]
      omega
    have := ItemToks.cons (json := p ++ (123 :: (a ++ 125 :: t) ++ q)) (lo := p.length) (p := p) (v := 123 :: (a ++ [125])) (q := t ++ q)
      (size := 1 + total k) (nested := x) (l := l) (ts := y) (by simp) (Nat.le_refl _) (Or.inr (Or.inr rfl)) (by omega)
      hz (fun h => (nomatch h)) (by
        simp only [List.append_assoc, List.cons_append, List.nil_append, List.length_cons, List.length_append, List.length_nil] at y3 ⊢
        exact y3)
    have hh : headTok p.length (123 :: (a ++ [125])) = ⟨.object, p.length, (p.length + (a.length + 2) : Nat)⟩ := by
      simp [headTok]; omega
    rw [hh] at this
    exact this

end L8w8jwt
