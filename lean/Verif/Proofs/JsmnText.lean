import Verif.Proofs.ParseClaims
import Verif.Proofs.JsonText
/-!
# The tokenizer on JSON texts
-/

namespace L8w8jwt
open Spec

/-! ## The loop in pieces -/

/-- The loop of the tokenizer without the end of the text. -/
def jRun (cap : Option Nat) : Bytes → Nat → JMode → JState → Except JErr (JMode × JState)
  | [], _, m, st => .ok (m, st)
  | c :: t, pos, m, st =>
    match jStep cap c pos m st with
    | .error e => .error e
    | .ok (m, st) => jRun cap t (pos + 1) m st

theorem jRun_append {cap : Option Nat} {a b : Bytes} {pos : Nat} {m m' : JMode} {st st' : JState}
    (h : jRun cap a pos m st = .ok (m', st')) : jRun cap (a ++ b) pos m st = jRun cap b (pos + a.length) m' st' := by
  induction a generalizing pos m st with
  | nil => cases h; rfl
  | cons c a ih =>
    simp only [List.cons_append, jRun] at h ⊢
    cases hs : jStep cap c pos m st with
    | error e => rw [hs] at h; cases h
    | ok x =>
      obtain ⟨m1, st1⟩ := x
      rw [hs] at h
      simp only at h ⊢
      rw [ih h, List.length_cons]
      congr 1
      omega

theorem jLoop_run {cap : Option Nat} {a b : Bytes} {pos : Nat} {m m' : JMode} {st st' : JState} (h0 : 0 ∉ a)
    (h : jRun cap a pos m st = .ok (m', st')) : jLoop cap (a ++ b) pos m st = jLoop cap b (pos + a.length) m' st' := by
  induction a generalizing pos m st with
  | nil => cases h; rfl
  | cons c a ih =>
    simp only [List.mem_cons, not_or] at h0
    simp only [List.cons_append, jRun, jLoop] at h ⊢
    rw [if_neg (fun e => h0.1 e.symm)]
    cases hs : jStep cap c pos m st with
    | error e => rw [hs] at h; cases h
    | ok x =>
      obtain ⟨m1, st1⟩ := x
      rw [hs] at h
      simp only at h ⊢
      rw [ih h0.2 h, List.length_cons]
      congr 1
      omega

/-- The state with these tokens, newest first. -/
def S (l : List Tok) : JState := ⟨l.length, l⟩

/-- After `pos` characters the tokens are `l`, where the last one may be a primitive that has not been stored yet. -/
def At (cap pos : Nat) (l : List Tok) (m : JMode) (st : JState) : Prop :=
  (m = .main ∧ st = S l) ∨
  ∃ a l', m = .prim a ∧ st = S l' ∧ l = ⟨.primitive, a, pos⟩ :: l' ∧ l'.length < cap

theorem At.main (cap pos : Nat) (l : List Tok) : At cap pos l .main (S l) := Or.inl ⟨rfl, rfl⟩

theorem jAlloc_S {cap : Nat} {l : List Tok} {t : Tok} (h : l.length < cap) : jAlloc (some cap) (S l) t = .ok (S (t :: l)) := by
  have : ¬ cap ≤ l.length := by omega
  simp [jAlloc, S, this]

theorem At.step {cap pos : Nat} {l : List Tok} {m : JMode} {st : JState} (h : At cap pos l m st) {c : UInt8} (hc : primStop c = true) :
    jStep (some cap) c pos m st = jMain (some cap) c pos (S l) := by
  rcases h with ⟨rfl, rfl⟩ | ⟨a, l', rfl, rfl, rfl, hl⟩
  · rfl
  · simp only [jStep, hc, if_true, jAlloc_S hl]

theorem At.fin {cap pos : Nat} {l : List Tok} {m : JMode} {st : JState} (h : At cap pos l m st)
    (hl : ∀ t ∈ l, 0 ≤ t.end_) (nul : Bool) : jEnd (some cap) pos nul m st = .ok (S l) := by
  have ho : l.any (fun t => t.start != -1 && t.end_ == -1) = false := by
    rw [List.any_eq_false]
    intro t ht
    have := hl t ht
    simp only [Bool.and_eq_true, bne_iff_ne, beq_iff_eq, not_and]
    omega
  rcases h with ⟨rfl, rfl⟩ | ⟨a, l', rfl, rfl, rfl, hl'⟩
  · simp only [jEnd, S, ho]; rfl
  · simp only [jEnd, jAlloc_S hl']
    simp only [S, ho]; rfl

theorem jMain_skip (cap : Option Nat) {c : UInt8} (pos : Nat) (st : JState) (h : c = 32 ∨ c = 9 ∨ c = 10 ∨ c = 13 ∨ c = 58 ∨ c = 44) :
    jMain cap c pos st = .ok (.main, st) := by
  rcases h with rfl | rfl | rfl | rfl | rfl | rfl <;> rfl

theorem primStop_skip {c : UInt8} (h : c = 32 ∨ c = 9 ∨ c = 10 ∨ c = 13 ∨ c = 58 ∨ c = 44) : primStop c = true := by
  rcases h with rfl | rfl | rfl | rfl | rfl | rfl <;> rfl

theorem At.skip {cap pos : Nat} {l : List Tok} {m : JMode} {st : JState} (h : At cap pos l m st) {c : UInt8}
    (hc : c = 32 ∨ c = 9 ∨ c = 10 ∨ c = 13 ∨ c = 58 ∨ c = 44) (t : Bytes) :
    jRun (some cap) (c :: t) pos m st = jRun (some cap) t (pos + 1) .main (S l) := by
  simp only [jRun, h.step (primStop_skip hc), jMain_skip _ _ _ hc]

theorem At.ws {cap pos : Nat} {l : List Tok} {m : JMode} {st : JState} (h : At cap pos l m st) {w : Bytes} (hw : JWs w) :
    ∃ m' st', jRun (some cap) w pos m st = .ok (m', st') ∧ At cap (pos + w.length) l m' st' ∧ (m = .main → m' = .main) := by
  induction w generalizing pos m st with
  | nil => exact ⟨m, st, rfl, h, id⟩
  | cons c w ih =>
    have hc : c = 32 ∨ c = 9 ∨ c = 10 ∨ c = 13 ∨ c = 58 ∨ c = 44 := by
      rcases hw c (by simp) with h | h | h | h <;> simp [h]
    rw [h.skip hc]
    obtain ⟨m', st', e, ha, hm⟩ := ih (At.main cap (pos + 1) l) (fun x hx => hw x (by simp [hx]))
    refine ⟨m', st', e, ?_, fun _ => hm rfl⟩
    rw [List.length_cons]
    rwa [show pos + (w.length + 1) = pos + 1 + w.length by omega]

theorem At.eq_main {cap pos : Nat} {l : List Tok} {st : JState} (h : At cap pos l .main st) : st = S l := by
  rcases h with ⟨-, h⟩ | ⟨a, l', h, -⟩
  · exact h
  · cases h

theorem main_ws (cap pos : Nat) (l : List Tok) {w : Bytes} (hw : JWs w) :
    jRun (some cap) w pos .main (S l) = .ok (.main, S l) := by
  obtain ⟨m', st', e, ha, hm⟩ := (At.main cap pos l).ws hw
  have := hm rfl
  subst this
  rw [e, ha.eq_main]

/-! ## Strings -/

theorem isHex_hexDigit {c : UInt8} {n : Nat} (h : hexDigit c = some n) : isHex c = true := by
  have key : ∀ j : Fin 256, (hexDigit (UInt8.ofNat j.val)).isSome = true → isHex (UInt8.ofNat j.val) = true := by decide +kernel
  have := key ⟨c.toNat, c.toNat_lt⟩
  simp only [UInt8.ofNat_toNat] at this
  exact this (by rw [h]; rfl)

theorem escOk_simple {e x : UInt8} (h : simpleEscape e = some x) : escOk e = true := by
  have key : ∀ j : Fin 256, (simpleEscape (UInt8.ofNat j.val)).isSome = true → escOk (UInt8.ofNat j.val) = true := by decide +kernel
  have := key ⟨e.toNat, e.toNat_lt⟩
  simp only [UInt8.ofNat_toNat] at this
  exact this (by rw [h]; rfl)

theorem body_run (cap : Option Nat) {t : Bytes} (h : Body t) (pos a : Nat) (st : JState) :
    jRun cap t pos (.str a .plain) st = .ok (.str a .plain, st) := by
  induction h generalizing pos with
  | nil => rfl
  | plain h1 h2 _ _ ih => simp [jRun, jStep, h1, h2, ih]
  | simple h1 h2 _ ih => simp [jRun, jStep, escOk_simple h1, ih]
  | hex e1 e2 e3 e4 _ ih =>
    simp [jRun, jStep, show escOk 117 = false from rfl, isHex_hexDigit e1, isHex_hexDigit e2, isHex_hexDigit e3, isHex_hexDigit e4, ih]

theorem body_nul {t : Bytes} (h : Body t) : 0 ∉ t := by
  have hx : ∀ c n, hexDigit c = some n → c ≠ 0 := by
    rintro c n h rfl; revert h; decide +revert
  induction h with
  | nil => simp
  | plain h1 h2 h3 _ ih =>
    simp only [List.mem_cons, not_or]
    exact ⟨fun e => h3 (by rw [← e]; decide), ih⟩
  | simple h1 h2 _ ih =>
    simp only [List.mem_cons, not_or]
    refine ⟨by decide, ?_, ih⟩
    rintro rfl
    cases h1
  | hex e1 e2 e3 e4 _ ih =>
    simp only [List.mem_cons, not_or]
    exact ⟨by decide, by decide, (hx _ _ e1).symm, (hx _ _ e2).symm, (hx _ _ e3).symm, (hx _ _ e4).symm, ih⟩

/-- A string token is stored. -/
theorem run_str {cap pos : Nat} {l : List Tok} {k : Bytes} (hk : JStr k) (hl : l.length < cap) :
    jRun (some cap) (34 :: (k ++ [34])) pos .main (S l) = .ok (.main, S (⟨.string, pos + 1, pos + 1 + k.length⟩ :: l)) := by
  have h1 := body_run (some cap) (jstr_body hk) (pos + 1) (pos + 1) (S l)
  have h2 : jRun (some cap) (34 :: (k ++ [34])) pos .main (S l) = jRun (some cap) (k ++ [34]) (pos + 1) (.str (pos + 1) .plain) (S l) := rfl
  rw [h2, jRun_append h1]
  simp only [jRun, jStep, if_true, jAlloc_S hl]
  rfl

/-! ## Primitives -/

/-- A character of a primitive. -/
def primChar (c : UInt8) : Bool := !primStop c && c != 123 && c != 91 && c != 34 && decide (32 ≤ c) && decide (c < 127)

theorem run_prim_tail (cap : Option Nat) {t : Bytes} (h : ∀ c ∈ t, primChar c = true) (pos a : Nat) (st : JState) :
    jRun cap t pos (.prim a) st = .ok (.prim a, st) := by
  induction t generalizing pos with
  | nil => rfl
  | cons c t ih =>
    have hc := h c (by simp)
    simp only [primChar, Bool.and_eq_true, Bool.not_eq_true', bne_iff_ne, decide_eq_true_eq] at hc
    have h1 : ¬ (c < 32 ∨ 127 ≤ c) := by
      rintro (h | h)
      · exact absurd hc.1.2 (UInt8.not_le.mpr h)
      · exact absurd hc.2 (UInt8.not_lt.mpr h)
    simp only [jRun, jStep, hc.1.1.1.1.1, Bool.false_eq_true, if_false, if_neg h1]
    exact ih (fun x hx => h x (by simp [hx])) _

theorem run_prim {cap pos : Nat} {l : List Tok} {t : Bytes} (hne : t ≠ []) (h : ∀ c ∈ t, primChar c = true) (hl : l.length < cap) :
    ∃ m st, jRun (some cap) t pos .main (S l) = .ok (m, st) ∧ At cap (pos + t.length) (⟨.primitive, pos, pos + t.length⟩ :: l) m st := by
  cases t with
  | nil => exact absurd rfl hne
  | cons c t =>
    have hc := h c (by simp)
    simp only [primChar, primStop, Bool.and_eq_true, Bool.not_eq_true', Bool.or_eq_false_iff, decide_eq_false_iff_not, bne_iff_ne, decide_eq_true_eq] at hc
    obtain ⟨⟨⟨⟨⟨hs, h1⟩, h2⟩, h3⟩, h4⟩, h5⟩ := hc
    obtain ⟨⟨⟨⟨⟨⟨⟨s1, s2⟩, s3⟩, s4⟩, s5⟩, s6⟩, s7⟩, s8⟩ := hs
    have hm : jMain (some cap) c pos (S l) = .ok (.prim pos, S l) := by
      unfold jMain
      rw [if_neg (by simp [h1, h2]), if_neg (by simp [s7, s8]), if_neg h3, if_neg (by simp [s1, s2, s3, s4, s5, s6]), if_neg]
      rintro (h | h)
      · exact absurd h4 (UInt8.not_le.mpr h)
      · exact absurd h5 (UInt8.not_lt.mpr h)
    refine ⟨.prim pos, S l, ?_, Or.inr ⟨pos, l, rfl, rfl, by simp, hl⟩⟩
    simp only [jRun, jStep, hm]
    exact run_prim_tail _ (fun x hx => h x (by simp [hx])) _ _ _

theorem jdigits_prim {t : Bytes} (h : JDigits t) : ∀ c ∈ t, primChar c = true := by
  intro c hc
  have key : ∀ j : Fin 256, 48 ≤ UInt8.ofNat j.val → UInt8.ofNat j.val ≤ 57 → primChar (UInt8.ofNat j.val) = true := by decide +kernel
  have := key ⟨c.toNat, c.toNat_lt⟩
  simp only [UInt8.ofNat_toNat] at this
  exact this (h.2 c hc).1 (h.2 c hc).2

theorem jnum_prim {t : Bytes} (h : JNum t) : t ≠ [] ∧ ∀ c ∈ t, primChar c = true := by
  obtain ⟨sgn, int, frac, ex, rfl, h1, h2, h3, h4⟩ := h
  have hi : int ≠ [] ∧ ∀ c ∈ int, primChar c = true := by
    rcases h2 with rfl | ⟨h2, -⟩
    · exact ⟨by simp, by decide⟩
    · exact ⟨h2.1, jdigits_prim h2⟩
  refine ⟨by simp [hi.1], fun c hc => ?_⟩
  simp only [List.mem_append] at hc
  rcases hc with ((hc | hc) | hc) | hc
  · rcases h1 with rfl | rfl
    · cases hc
    · simp at hc; subst hc; decide
  · exact hi.2 c hc
  · rcases h3 with rfl | ⟨d, rfl, hd⟩
    · cases hc
    · rcases List.mem_cons.mp hc with rfl | hc
      · decide
      · exact jdigits_prim hd c hc
  · rcases h4 with rfl | ⟨e, s, d, rfl, he, hs, hd⟩
    · cases hc
    · simp only [List.mem_cons, List.mem_append] at hc
      rcases hc with rfl | hc | hc
      · rcases he with rfl | rfl <;> decide
      · rcases hs with rfl | rfl | rfl
        · cases hc
        · simp at hc; subst hc; decide
        · simp at hc; subst hc; decide
      · exact jdigits_prim hd c hc

theorem jlit_prim {t : Bytes} (h : t ∈ [str "true", str "false", str "null"]) : t ≠ [] ∧ ∀ c ∈ t, primChar c = true := by
  simp only [List.mem_cons, List.not_mem_nil, or_false] at h
  rcases h with rfl | rfl | rfl <;> decide

theorem prim_head {t : Bytes} (h : ∀ c ∈ t, primChar c = true) : t.head? ≠ some 34 ∧ t.head? ≠ some 91 ∧ t.head? ≠ some 123 := by
  cases t with
  | nil => simp
  | cons c t =>
    have := h c (by simp)
    refine ⟨?_, ?_, ?_⟩ <;> (intro e; simp at e; subst e; revert this; decide)

theorem prim_nul {t : Bytes} (h : ∀ c ∈ t, primChar c = true) : 0 ∉ t := by
  intro hx
  have := h 0 hx
  revert this; decide

/-! ## Values -/

/-- The first token of a value that starts at `pos`. -/
def headTok (pos : Nat) (v : Bytes) : Tok :=
  if v.head? = some 34 then ⟨.string, pos + 1, ((pos + v.length : Nat) : Int) - 1⟩
  else if v.head? = some 91 then ⟨.array, pos, (pos + v.length : Nat)⟩
  else if v.head? = some 123 then ⟨.object, pos, (pos + v.length : Nat)⟩
  else ⟨.primitive, pos, (pos + v.length : Nat)⟩

/-- The text produces these tokens (oldest first). -/
structure Runs (t : Bytes) (pos : Nat) (toks : List Tok) : Prop where
  run : ∀ cap l, l.length + toks.length ≤ cap →
    ∃ m st, jRun (some cap) t pos .main (S l) = .ok (m, st) ∧ At cap (pos + t.length) (toks.reverse ++ l) m st
  ends : ∀ x ∈ toks, 0 ≤ x.end_ ∧ x.end_ ≤ (pos + t.length : Nat)
  nul : 0 ∉ t

theorem jClose_skip {type : JType} {e : Nat} {a l : List Tok} (ha : ∀ x ∈ a, 0 ≤ x.end_) (pos : Nat) :
    jClose type e (a ++ ⟨type, pos, -1⟩ :: l) = .ok (a ++ ⟨type, pos, e⟩ :: l) := by
  induction a with
  | nil =>
    simp only [List.nil_append, jClose]
    rw [if_pos (by simp), if_neg (by simp)]
  | cons x a ih =>
    simp only [List.cons_append, jClose]
    have := ha x (by simp)
    rw [if_neg (by intro h; omega), ih (fun y hy => ha y (by simp [hy]))]

theorem runs_wrap {t : Bytes} {pos : Nat} {toks : List Tok} (h : Runs t (pos + 1) toks) (isObj : Bool) :
    Runs ((if isObj then 123 else 91) :: (t ++ [if isObj then 125 else 93])) pos
      (⟨if isObj then .object else .array, pos, (pos + t.length + 2 : Nat)⟩ :: toks) := by
  refine ⟨fun cap l hc => ?_, fun x hx => ?_, ?_⟩
  · simp only [List.length_cons] at hc
    obtain ⟨m, st, e, ha⟩ := h.run cap (⟨if isObj then .object else .array, pos, -1⟩ :: l) (by simp; omega)
    refine ⟨.main, S (toks.reverse ++ ⟨if isObj then .object else .array, pos, (pos + t.length + 2 : Nat)⟩ :: l), ?_, ?_⟩
    · have h1 : jRun (some cap) ((if isObj then 123 else 91) :: (t ++ [if isObj then 125 else 93])) pos .main (S l) =
          jRun (some cap) (t ++ [if isObj then 125 else 93]) (pos + 1) .main (S (⟨if isObj then .object else .array, pos, -1⟩ :: l)) := by
        cases isObj <;> simp [jRun, jStep, jMain, jAlloc_S (show l.length < cap by omega)]
      have h2 : primStop (if isObj then 125 else 93) = true := by cases isObj <;> rfl
      rw [h1, jRun_append e]
      simp only [jRun, ha.step h2]
      have hcl := jClose_skip (type := if isObj then .object else .array) (e := pos + 1 + t.length + 1) (a := toks.reverse) (l := l)
        (fun x hx => (h.ends x (by simpa using hx)).1) pos
      have h3 : jMain (some cap) (if isObj then 125 else 93) (pos + 1 + t.length) (S (toks.reverse ++ ⟨if isObj then .object else .array, pos, -1⟩ :: l)) =
          .ok (.main, S (toks.reverse ++ ⟨if isObj then .object else .array, pos, (pos + 1 + t.length + 1 : Nat)⟩ :: l)) := by
        cases isObj
        · simp only [jMain, S]
          simp only [Bool.false_eq_true, if_false] at hcl ⊢
          simp [hcl]
        · simp only [jMain, S]
          simp only [if_true] at hcl ⊢
          simp [hcl]
      rw [h3, show pos + 1 + t.length + 1 = pos + t.length + 2 by omega]
    · have := At.main cap (pos + (t.length + 2)) (toks.reverse ++ ⟨if isObj then .object else .array, pos, (pos + t.length + 2 : Nat)⟩ :: l)
      simpa using this
  · simp only [List.length_cons, List.length_append, List.length_nil]
    rcases List.mem_cons.mp hx with rfl | hx
    · simp only; omega
    · have := h.ends x hx
      omega
  · have := h.nul
    cases isObj <;> simp [this]

theorem runs_ws {w : Bytes} (hw : JWs w) (pos : Nat) : Runs w pos [] := by
  refine ⟨fun cap l _ => ⟨.main, S l, main_ws cap pos l hw, At.main _ _ _⟩, fun x hx => (nomatch hx), fun hx => ?_⟩
  rcases hw 0 hx with h | h | h | h <;> cases h

/-- Composition, where the first part may end with a pending primitive and the second one starts with a separator. -/
theorem Runs.sep {a t : Bytes} {pos : Nat} {x y : List Tok} {c : UInt8} (h : Runs a pos x) (hc : c = 58 ∨ c = 44)
    (ht : Runs t (pos + a.length + 1) y) : Runs (a ++ c :: t) pos (x ++ y) := by
  refine ⟨fun cap l hl => ?_, fun z hz => ?_, ?_⟩
  · rw [List.length_append] at hl
    obtain ⟨m, st, e, ha⟩ := h.run cap l (by omega)
    obtain ⟨m', st', e', ha'⟩ := ht.run cap (x.reverse ++ l) (by simp; omega)
    refine ⟨m', st', ?_, ?_⟩
    · rw [jRun_append e, ha.skip (by rcases hc with h | h <;> simp [h])]
      exact e'
    · simp only [List.length_append, List.length_cons, List.reverse_append, List.append_assoc]
      rwa [show pos + (a.length + (t.length + 1)) = pos + a.length + 1 + t.length by omega]
  · simp only [List.length_append, List.length_cons]
    rcases List.mem_append.mp hz with hz | hz
    · have := h.ends z hz; omega
    · have := ht.ends z hz; omega
  · have h1 := h.nul
    have h2 := ht.nul
    rcases hc with rfl | rfl <;> simp [h1, h2]

/-- White space before. -/
theorem Runs.pre {w t : Bytes} {pos : Nat} {x : List Tok} (hw : JWs w) (ht : Runs t (pos + w.length) x) : Runs (w ++ t) pos x := by
  refine ⟨fun cap l hl => ?_, fun z hz => ?_, ?_⟩
  · obtain ⟨m', st', e', ha'⟩ := ht.run cap l hl
    refine ⟨m', st', ?_, ?_⟩
    · rw [jRun_append (main_ws cap pos l hw)]; exact e'
    · simp only [List.length_append]
      rwa [show pos + (w.length + t.length) = pos + w.length + t.length by omega]
  · have := ht.ends z hz
    simp only [List.length_append]
    omega
  · have h1 := (runs_ws hw pos).nul
    have h2 := ht.nul
    simp [h1, h2]

/-- White space after. -/
theorem Runs.post {w t : Bytes} {pos : Nat} {x : List Tok} (ht : Runs t pos x) (hw : JWs w) : Runs (t ++ w) pos x := by
  refine ⟨fun cap l hl => ?_, fun z hz => ?_, ?_⟩
  · obtain ⟨m, st, e, ha⟩ := ht.run cap l hl
    obtain ⟨m', st', e', ha', -⟩ := ha.ws hw
    refine ⟨m', st', ?_, ?_⟩
    · rw [jRun_append e]; exact e'
    · simp only [List.length_append]
      rwa [show pos + (t.length + w.length) = pos + t.length + w.length by omega]
  · have := ht.ends z hz
    simp only [List.length_append]
    omega
  · have h1 := (runs_ws hw pos).nul
    have h2 := ht.nul
    simp [h1, h2]

theorem runs_str {k : Bytes} (hk : JStr k) (pos : Nat) : Runs (34 :: (k ++ [34])) pos [⟨.string, pos + 1, pos + 1 + k.length⟩] := by
  refine ⟨fun cap l hl => ⟨.main, _, run_str hk (by simp at hl; omega), ?_⟩, fun z hz => ?_, ?_⟩
  · exact At.main _ _ _
  · simp only [List.mem_singleton] at hz
    subst hz
    simp only [List.length_cons, List.length_append, List.length_nil]
    omega
  · have := body_nul (jstr_body hk)
    simp [this]

theorem runs_prim {t : Bytes} (h : t ≠ [] ∧ ∀ c ∈ t, primChar c = true) (pos : Nat) :
    Runs t pos [⟨.primitive, pos, (pos + t.length : Nat)⟩] := by
  refine ⟨fun cap l hl => ?_, fun z hz => ?_, prim_nul h.2⟩
  · obtain ⟨m, st, e, ha⟩ := run_prim (cap := cap) (pos := pos) (l := l) h.1 h.2 (by simp at hl; omega)
    exact ⟨m, st, e, by simpa using ha⟩
  · simp only [List.mem_singleton] at hz
    subst hz
    simp only
    omega

/-- Tokens of a member of an object: key, value, nested ones. -/
theorem runs_member {a k b c v d : Bytes} {pos : Nat} {x : List Tok} (ha : JWs a) (hk : JStr k) (hb : JWs b) (hc : JWs c) (hd : JWs d)
    (hv : Runs v (pos + a.length + k.length + b.length + c.length + 3) x) :
    Runs (a ++ 34 :: (k ++ 34 :: (b ++ 58 :: (c ++ v ++ d)))) pos
      (⟨.string, (pos + a.length + 1 : Nat), (pos + a.length + 1 + k.length : Nat)⟩ :: x) := by
  have h1 := (runs_str hk (pos + a.length)).post hb
  have h2 : Runs (c ++ v ++ d) (pos + a.length + (34 :: (k ++ [34]) ++ b).length + 1) x := by
    rw [List.append_assoc]
    refine Runs.pre hc (Runs.post ?_ hd)
    simp only [List.length_append, List.length_cons, List.length_nil]
    rwa [show pos + a.length + (k.length + (0 + 1) + 1 + b.length) + 1 + c.length = pos + a.length + k.length + b.length + c.length + 3 by omega]
  have h3 := Runs.pre ha (Runs.sep h1 (Or.inl rfl) h2)
  have h4 := h3
  simp only [List.append_assoc, List.cons_append, List.nil_append] at h4
  simpa using h4

/-- The tokens of a value: the head and nested ones (only if it is an array or an object). -/
theorem jsize_runs {k : JKind} {t : Bytes} {n : Nat} (h : JSize k t n) (pos : Nat) :
    ∃ toks, toks.length = n ∧ Runs t pos toks ∧ (k = .value → t ≠ [] ∧ ∃ nested, toks = headTok pos t :: nested ∧
      (composite t = false → nested = [])) := by
  induction h generalizing pos with
  | @str t h =>
    refine ⟨_, rfl, runs_str h pos, fun _ => ⟨by simp, [], ?_, fun _ => rfl⟩⟩
    simp only [headTok, List.head?_cons, if_true, List.length_cons, List.length_append, List.length_nil]
    congr 2
    omega
  | @num t h =>
    have hp := jnum_prim h
    obtain ⟨h1, h2, h3⟩ := prim_head hp.2
    refine ⟨_, rfl, runs_prim hp pos, fun _ => ⟨hp.1, [], ?_, fun _ => rfl⟩⟩
    simp only [headTok, if_neg h1, if_neg h2, if_neg h3]
  | @lit t h =>
    have hp := jlit_prim h
    obtain ⟨h1, h2, h3⟩ := prim_head hp.2
    refine ⟨_, rfl, runs_prim hp pos, fun _ => ⟨hp.1, [], ?_, fun _ => rfl⟩⟩
    simp only [headTok, if_neg h1, if_neg h2, if_neg h3]
  | @arr0 w h =>
    refine ⟨_, rfl, runs_wrap (runs_ws h (pos + 1)) false, fun _ => ⟨by simp, [], ?_, fun _ => rfl⟩⟩
    simp [headTok, Nat.add_assoc]
  | @obj0 w h =>
    refine ⟨_, rfl, runs_wrap (runs_ws h (pos + 1)) true, fun _ => ⟨by simp, [], ?_, fun _ => rfl⟩⟩
    simp [headTok, Nat.add_assoc]
  | @arr t n _ ih =>
    obtain ⟨toks, hn, hr, -⟩ := ih (pos + 1)
    refine ⟨_, by simp [hn], runs_wrap hr false, fun _ => ⟨by simp, toks, ?_, fun h => ?_⟩⟩
    · simp [headTok, Nat.add_assoc]
    · simp [composite] at h
  | @obj t n _ ih =>
    obtain ⟨toks, hn, hr, -⟩ := ih (pos + 1)
    refine ⟨_, by simp [hn], runs_wrap hr true, fun _ => ⟨by simp, toks, ?_, fun h => ?_⟩⟩
    · simp [headTok, Nat.add_assoc]
    · simp [composite] at h
  | @elem a v b n ha _ hb ih =>
    obtain ⟨toks, hn, hr, -⟩ := ih (pos + a.length)
    exact ⟨toks, hn, by rw [List.append_assoc]; exact Runs.pre ha (hr.post hb), fun h => by cases h⟩
  | @elems a v b t n m ha _ hb _ ih1 ih2 =>
    obtain ⟨x, hn, hr, -⟩ := ih1 (pos + a.length)
    obtain ⟨y, hm, hs, -⟩ := ih2 (pos + (a ++ v ++ b).length + 1)
    refine ⟨x ++ y, by simp [hn, hm], ?_, fun h => by cases h⟩
    refine Runs.sep ?_ (Or.inr rfl) hs
    rw [List.append_assoc]
    exact Runs.pre ha (hr.post hb)
  | @mem a k b c v d n ha hk hb hc _ hd ih =>
    obtain ⟨x, hn, hr, -⟩ := ih (pos + a.length + k.length + b.length + c.length + 3)
    exact ⟨_, by simp [hn], runs_member ha hk hb hc hd hr, fun h => by cases h⟩
  | @mems a k b c v d t n m ha hk hb hc _ hd _ ih1 ih2 =>
    obtain ⟨x, hn, hr, -⟩ := ih1 (pos + a.length + k.length + b.length + c.length + 3)
    obtain ⟨y, hm, hs, -⟩ := ih2 (pos + (a ++ 34 :: (k ++ 34 :: (b ++ 58 :: (c ++ v ++ d)))).length + 1)
    have := Runs.sep (runs_member ha hk hb hc hd hr) (Or.inr rfl) hs
    refine ⟨_, ?_, by simpa using this, fun h => by cases h⟩
    simp [hn, hm]
    omega

end L8w8jwt
