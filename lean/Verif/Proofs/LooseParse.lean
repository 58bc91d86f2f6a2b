import Verif.Proofs.LooseClaims
/-!
# The texts the tokenizer accepts are exactly those of relaxed JSON
-/

namespace L8w8jwt
open Spec

/-! ## Pieces of a run -/

theorem str_split {cap : Option Nat} : ∀ (n : Nat) (t : Bytes) (pos a : Nat) (st st' : JState), t.length ≤ n → 0 ∉ t →
    jLoop cap t pos (.str a .plain) st = .ok st' → ∃ b t' st1, t = b ++ 34 :: t' ∧ Quoted b ∧
      jAlloc cap st ⟨.string, a, (pos + b.length : Nat)⟩ = .ok st1 ∧ jLoop cap t' (pos + (b.length + 1)) .main st1 = .ok st' := by
  intro n
  induction n with
  | zero =>
    intro t pos a st st' hl _ h
    have : t = [] := List.length_eq_zero_iff.mp (by omega)
    subst this
    cases h
  | succ n ih =>
    intro t pos a st st' hl h0 h
    -- what follows once `x` has been read
    have next : ∀ (x t2 : Bytes), t = x ++ t2 → x ≠ [] → (∀ b, Quoted b → Quoted (x ++ b)) →
        jLoop cap t2 (pos + x.length) (.str a .plain) st = .ok st' →
        ∃ b t' st1, t = b ++ 34 :: t' ∧ Quoted b ∧
          jAlloc cap st ⟨.string, a, (pos + b.length : Nat)⟩ = .ok st1 ∧ jLoop cap t' (pos + (b.length + 1)) .main st1 = .ok st' := by
      intro x t2 hx hne hq hr
      have hpos := List.length_pos_iff.mpr hne
      obtain ⟨b, t', st1, e, hb, ha, hm⟩ := ih t2 (pos + x.length) a st st' (by rw [hx, List.length_append] at hl; omega)
        (by rw [hx] at h0; simp at h0; exact h0.2) hr
      refine ⟨x ++ b, t', st1, by rw [hx, e]; simp, hq b hb, ?_, ?_⟩
      · rw [List.length_append, show pos + (x.length + b.length) = pos + x.length + b.length by omega]; exact ha
      · rw [List.length_append, show pos + (x.length + b.length + 1) = pos + x.length + (b.length + 1) by omega]; exact hm
    match t, h, h0, next with
    | [], h, _, _ => cases h
    | c :: t, h, h0, next =>
      simp only [List.mem_cons, not_or] at h0
      rw [jLoop, if_neg (fun e => h0.1 e.symm)] at h
      simp only [jStep] at h
      by_cases h34 : c = 34
      · subst h34
        rw [if_pos rfl] at h
        cases ha : jAlloc cap st ⟨.string, a, pos⟩ with
        | error e => rw [ha] at h; cases h
        | ok st1 =>
          rw [ha] at h
          exact ⟨[], t, st1, rfl, .nil, ha, h⟩
      · rw [if_neg h34] at h
        by_cases h92 : c = 92
        · subst h92
          rw [if_pos rfl] at h
          simp only at h
          match t, h, h0, next with
          | [], h, _, _ => cases h
          | e :: t, h, h0, next =>
            have h0' := h0.2
            simp only [List.mem_cons, not_or] at h0'
            rw [jLoop, if_neg (fun e => h0'.1 e.symm)] at h
            simp only [jStep] at h
            by_cases hes : escOk e = true
            · rw [if_pos hes] at h
              rw [escOk_eq] at hes
              exact next [92, e] t rfl (by simp) (fun b hb => .esc hes hb) h
            · rw [if_neg hes] at h
              by_cases hu : e = 117
              · subst hu
                rw [if_pos rfl] at h
                simp only at h
                have hex : ∀ (k : Nat) (t : Bytes) (pos : Nat), 0 ∉ t → jLoop cap t pos (.str a (.hex k)) st = .ok st' →
                    ∃ w t', t = w :: t' ∧ 0 ∉ t' ∧ (hexDigit w).isSome = true ∧
                      jLoop cap t' (pos + 1) (.str a (match k with | 0 => .plain | k + 1 => .hex k)) st = .ok st' := by
                  intro k t pos h0 h
                  cases t with
                  | nil => cases h
                  | cons w t =>
                    simp only [List.mem_cons, not_or] at h0
                    rw [jLoop, if_neg (fun e => h0.1 e.symm)] at h
                    simp only [jStep] at h
                    by_cases hw : isHex w = true
                    · rw [if_pos hw] at h
                      rw [isHex_eq] at hw
                      exact ⟨w, t, rfl, h0.2, hw, h⟩
                    · rw [if_neg hw] at h; cases h
                obtain ⟨w, t1, rfl, z1, w1, h⟩ := hex 3 t _ h0'.2 h
                obtain ⟨x, t2, rfl, z2, w2, h⟩ := hex 2 t1 _ z1 h
                obtain ⟨y, t3, rfl, z3, w3, h⟩ := hex 1 t2 _ z2 h
                obtain ⟨z, t4, rfl, z4, w4, h⟩ := hex 0 t3 _ z3 h
                exact next [92, 117, w, x, y, z] t4 rfl (by simp) (fun b hb => .hex w1 w2 w3 w4 hb) h
              · rw [if_neg hu] at h; cases h
        · rw [if_neg h92] at h
          exact next [c] t rfl (by simp) (fun b hb => .plain h34 h92 hb) h

theorem prim_split {cap : Option Nat} (t : Bytes) (pos a : Nat) (st st' : JState) (h0 : 0 ∉ t)
    (h : jLoop cap t pos (.prim a) st = .ok st') : ∃ w t' st1, t = w ++ t' ∧ (∀ x ∈ w, wordChar x = true) ∧ Stops t' ∧
      jAlloc cap st ⟨.primitive, a, (pos + w.length : Nat)⟩ = .ok st1 ∧ jLoop cap t' (pos + w.length) .main st1 = .ok st' := by
  induction t generalizing pos with
  | nil =>
    simp only [jLoop, jEnd] at h
    cases ha : jAlloc cap st ⟨.primitive, a, pos⟩ with
    | error e => rw [ha] at h; cases h
    | ok st1 =>
      rw [ha] at h
      exact ⟨[], [], st1, rfl, fun x hx => (nomatch hx), fun c hc => (nomatch hc), ha, h⟩
  | cons c t ih =>
    simp only [List.mem_cons, not_or] at h0
    have hc0 : ¬ c = 0 := fun e => h0.1 e.symm
    rw [jLoop, if_neg hc0] at h
    simp only [jStep] at h
    by_cases hs : primStop c = true
    · rw [if_pos hs] at h
      cases ha : jAlloc cap st ⟨.primitive, a, pos⟩ with
      | error e => rw [ha] at h; cases h
      | ok st1 =>
        rw [ha] at h
        refine ⟨[], c :: t, st1, rfl, fun x hx => (nomatch hx), fun d hd => ?_, ha, ?_⟩
        · cases hd; rw [← primStop_eq]; exact hs
        · rw [jLoop, if_neg hc0]; exact h
    · rw [if_neg hs] at h
      by_cases hp : c < 32 ∨ 127 ≤ c
      · rw [if_pos hp] at h; cases h
      · rw [if_neg hp] at h
        obtain ⟨w, t', st1, e, hw, hst, ha, hm⟩ := ih (pos + 1) h0.2 h
        refine ⟨c :: w, t', st1, by rw [e]; rfl, fun x hx => ?_, hst, ?_, ?_⟩
        · rcases List.mem_cons.mp hx with rfl | hx
          · exact wordChar_of (by simpa using hs) hp
          · exact hw x hx
        · rw [List.length_cons, show pos + (w.length + 1) = pos + 1 + w.length by omega]; exact ha
        · rw [List.length_cons, show pos + (w.length + 1) = pos + 1 + w.length by omega]; exact hm

/-- The characters that are not handled by the first cases of `jsmn_parse` start a word. -/
theorem jMain_other {cap : Option Nat} {c : UInt8} {pos : Nat} {st : JState} {x : JMode × JState} (h1 : c ≠ 123) (h2 : c ≠ 91) (h3 : c ≠ 125)
    (h4 : c ≠ 93) (h5 : c ≠ 34) (h6 : gapChar c = false) (h : jMain cap c pos st = .ok x) :
    wordChar c = true ∧ x = (.prim pos, st) := by
  simp only [gapChar, Bool.or_eq_false_iff, beq_eq_false_iff_ne] at h6
  obtain ⟨⟨⟨⟨⟨g1, g2⟩, g3⟩, g4⟩, g5⟩, g6⟩ := h6
  unfold jMain at h
  rw [if_neg (by simp [h1, h2]), if_neg (by simp [h3, h4]), if_neg h5, if_neg (by simp [g1, g2, g3, g4, g5, g6])] at h
  by_cases hp : c < 32 ∨ 127 ≤ c
  · rw [if_pos hp] at h; cases h
  · rw [if_neg hp] at h
    cases h
    refine ⟨wordChar_of ?_ hp, rfl⟩
    simp [primStop, g1, g2, g3, g4, g5, g6, h3, h4]

/-! ## The storing pass -/

/-- The braces (`true`) and brackets (`false`) that are open, newest first. -/
def opens (l : List Tok) : List Bool :=
  l.filterMap fun t => if t.start ≠ -1 ∧ t.end_ = -1 then some (t.type == .object) else none

theorem opens_closed {t : Tok} (h : t.end_ ≠ -1) (l : List Tok) : opens (t :: l) = opens l := by
  simp [opens, h]

theorem opens_open {t : Tok} (h : t.end_ = -1) (h' : t.start ≠ -1) (l : List Tok) : opens (t :: l) = (t.type == .object) :: opens l := by
  simp [opens, h, h']

theorem jClose_opens {type : JType} {e pos : Nat} (hty : type = .object ∨ type = .array) (l l' : List Tok) (hl : ∀ t ∈ l, TokOk pos t)
    (h : jClose type e l = .ok l') : opens l = (type == .object) :: opens l' := by
  induction l generalizing l' with
  | nil => cases h
  | cons t ts ih =>
    rw [jClose] at h
    by_cases ho : t.start ≠ -1 ∧ t.end_ = -1
    · rw [if_pos ho] at h
      by_cases ht : t.type ≠ type
      · rw [if_pos ht] at h; cases h
      · rw [if_neg ht] at h
        cases h
        have ht : t.type = type := Classical.not_not.mp ht
        rw [opens_open ho.2 ho.1, opens_closed (by simp only; omega), ht]
    · rw [if_neg ho] at h
      cases hc : jClose type e ts with
      | error e => rw [hc] at h; cases h
      | ok ts' =>
        rw [hc] at h
        cases h
        have hne : t.end_ ≠ -1 := by
          intro he
          have h0 := (hl t (by simp)).1
          exact ho ⟨by omega, he⟩
        rw [opens_closed hne, opens_closed hne]
        exact ih ts' (fun x hx => hl x (by simp [hx])) hc

/-- The text closes the open braces and brackets, newest first. -/
inductive Closes : List Bool → Bytes → Prop where
  | nil {t k} : Items t k → Closes [] t
  | cons {a k t st} {b : Bool} : Items a k → Closes st t → Closes (b :: st) (a ++ (if b then 125 else 93) :: t)

theorem Closes.add {st : List Bool} {t x : Bytes} (h : Closes st t)
    (hx : ∀ a k, (Stops t → Stops a) → Items a k → ∃ k', Items (x ++ a) k') : Closes st (x ++ t) := by
  cases h with
  | nil h =>
    obtain ⟨k', h'⟩ := hx _ _ id h
    exact .nil h'
  | @cons a k t st b h hc =>
    obtain ⟨k', h'⟩ := hx a k (fun hs => by
      cases a with
      | nil => intro c hc; cases hc
      | cons c a => intro d hd; exact hs d (by simpa using hd)) h
    rw [← List.append_assoc]
    exact .cons h' hc

theorem parse_closes {cap : Nat} : ∀ (n : Nat) (t : Bytes) (pos : Nat) (st st' : JState), t.length ≤ n → 0 ∉ t → JInv pos .main st →
    jLoop (some cap) t pos .main st = .ok st' → Closes (opens st.toks) t := by
  intro n
  induction n with
  | zero =>
    intro t pos st st' hl _ i h
    have : t = [] := List.length_eq_zero_iff.mp (by omega)
    subst this
    simp only [jLoop, jEnd] at h
    split at h
    · cases h
    · rename_i hany
      have : opens st.toks = [] := by
        rw [opens, List.filterMap_eq_nil_iff]
        intro x hx
        have := List.any_eq_false.mp (Bool.not_eq_true _ ▸ hany) x hx
        simp at this
        simp
        exact this
      rw [this]
      exact .nil .nil
  | succ n ih =>
    intro t pos st st' hl h0 i h
    cases t with
    | nil => exact ih [] pos st st' (by simp) h0 i h
    | cons c t =>
      simp only [List.length_cons] at hl
      simp only [List.mem_cons, not_or] at h0
      rw [jLoop, if_neg (fun e => h0.1 e.symm)] at h
      simp only [jStep] at h
      cases hm : jMain (some cap) c pos st with
      | error e => rw [hm] at h; cases h
      | ok x =>
        obtain ⟨m1, st1⟩ := x
        rw [hm] at h
        simp only at h
        have i1 := i.main hm
        have group : ∀ (o : Bool), c = (if o then 123 else 91) → m1 = .main → opens st1.toks = o :: opens st.toks → Closes (opens st.toks) (c :: t) := by
          intro o hc hm1 ho
          subst hm1
          have := ih t (pos + 1) st1 st' (by omega) h0.2 i1 h
          rw [ho] at this
          cases this with
          | @cons a k t2 _ _ ha hcl =>
            have := hcl.add (x := c :: (a ++ [if o then 125 else 93])) (fun a' k' _ h' => by
              cases o
              · subst hc; exact ⟨_, by simpa using Items.array ha h'⟩
              · subst hc; exact ⟨_, by simpa using Items.object ha h'⟩)
            simpa using this
        have hal : ∀ {t0 : Tok} {s1 : JState}, jAlloc (some cap) st t0 = .ok s1 → s1.toks = t0 :: st.toks := by
          intro t0 s1 ha
          simp only [jAlloc] at ha
          split at ha
          · cases ha
          · cases ha; rfl
        by_cases c1 : c = 123
        · subst c1
          simp only [jMain] at hm
          cases ha : jAlloc (some cap) st ⟨.object, pos, -1⟩ with
          | error e => simp [ha] at hm
          | ok s1 =>
            simp [ha] at hm
            obtain ⟨rfl, rfl⟩ := hm
            refine group true rfl rfl ?_
            rw [hal ha, opens_open rfl (by simp only; omega)]
            rfl
        by_cases c2 : c = 91
        · subst c2
          simp only [jMain] at hm
          cases ha : jAlloc (some cap) st ⟨.array, pos, -1⟩ with
          | error e => simp [ha] at hm
          | ok s1 =>
            simp [ha] at hm
            obtain ⟨rfl, rfl⟩ := hm
            refine group false rfl rfl ?_
            rw [hal ha, opens_open rfl (by simp only; omega)]
            rfl
        by_cases c3 : c = 125
        · subst c3
          simp only [jMain] at hm
          cases ha : jClose .object (pos + 1) st.toks with
          | error e => simp [ha] at hm
          | ok ts =>
            simp [ha] at hm
            obtain ⟨rfl, rfl⟩ := hm
            rw [jClose_opens (Or.inl rfl) _ _ i.toks ha]
            exact .cons (b := true) .nil (ih t (pos + 1) _ st' (by omega) h0.2 i1 h)
        by_cases c4 : c = 93
        · subst c4
          simp only [jMain] at hm
          cases ha : jClose .array (pos + 1) st.toks with
          | error e => simp [ha] at hm
          | ok ts =>
            simp [ha] at hm
            obtain ⟨rfl, rfl⟩ := hm
            rw [jClose_opens (Or.inr rfl) _ _ i.toks ha]
            exact .cons (b := false) .nil (ih t (pos + 1) _ st' (by omega) h0.2 i1 h)
        by_cases c5 : c = 34
        · subst c5
          simp only [jMain] at hm
          simp at hm
          obtain ⟨rfl, rfl⟩ := hm
          obtain ⟨b, t', s2, rfl, hb, ha, h2⟩ := str_split t.length t (pos + 1) (pos + 1) st st' (Nat.le_refl _) h0.2 h
          have hcl := ih t' (pos + 1 + (b.length + 1)) s2 st' (by simp at hl; omega) (by have := h0.2; simp at this; exact this.2) (by
            refine i.alloc (pos' := pos + 1 + (b.length + 1)) (m' := .main) ha (by omega) ?_ trivial
            refine ⟨by simp only; omega, Or.inr ⟨by simp only; omega, by simp only; omega, Or.inr (Or.inr (Or.inl rfl))⟩⟩) h2
          rw [hal ha, opens_closed (by simp only; omega)] at hcl
          have := hcl.add (x := 34 :: (b ++ [34])) (fun a k _ h' => ⟨_, by simpa using Items.string hb h'⟩)
          simpa using this
        by_cases c6 : gapChar c = true
        · rw [jMain_skip _ _ _ (gap_cases c6)] at hm
          cases hm
          exact (ih t (pos + 1) st st' (by omega) h0.2 i1 h).add (x := [c]) (fun a k _ h' => ⟨_, .gap c6 h'⟩)
        · obtain ⟨hw, e⟩ := jMain_other c1 c2 c3 c4 c5 (by simpa using c6) hm
          cases e
          obtain ⟨w, t', s2, rfl, hws, hst, ha, h2⟩ := prim_split t (pos + 1) pos st st' h0.2 h
          have hcl := ih t' (pos + 1 + w.length) s2 st' (by simp at hl; omega) (by have := h0.2; simp at this; exact this.2) (by
            refine i.alloc (pos' := pos + 1 + w.length) (m' := .main) ha (by omega) ?_ trivial
            refine ⟨by simp only; omega, Or.inr ⟨by simp only; omega, by simp only; omega, Or.inr (Or.inr (Or.inr ⟨rfl, by simp only; omega⟩))⟩⟩) h2
          rw [hal ha, opens_closed (by simp only; omega)] at hcl
          have hword : Word (c :: w) := ⟨c, w, rfl, hw, c5, c2, c1, hws⟩
          exact hcl.add (x := c :: w) (fun a k hs h' => ⟨_, Items.word hword (hs hst) h'⟩)

/-! ## The counting pass -/

theorem count_lexes : ∀ (n : Nat) (t : Bytes) (pos : Nat) (st st' : JState), t.length ≤ n → 0 ∉ t →
    jLoop none t pos .main st = .ok st' → ∃ k, Lexes t k ∧ st'.count = st.count + k := by
  intro n
  induction n with
  | zero =>
    intro t pos st st' hl _ h
    have : t = [] := List.length_eq_zero_iff.mp (by omega)
    subst this
    simp only [jLoop, jEnd] at h
    split at h
    · cases h
    · cases h; exact ⟨0, .nil, rfl⟩
  | succ n ih =>
    intro t pos st st' hl h0 h
    cases t with
    | nil => exact ih [] pos st st' (by simp) h0 h
    | cons c t =>
      simp only [List.length_cons] at hl
      simp only [List.mem_cons, not_or] at h0
      rw [jLoop, if_neg (fun e => h0.1 e.symm)] at h
      simp only [jStep] at h
      by_cases c1 : c = 123 ∨ c = 91
      · simp only [jMain, if_pos c1, jAlloc] at h
        obtain ⟨k, hk, e⟩ := ih t (pos + 1) _ st' (by omega) h0.2 h
        exact ⟨k + 1, .opening c1.symm hk, by simp at e; omega⟩
      by_cases c2 : c = 125 ∨ c = 93
      · simp only [jMain, if_neg c1, if_pos c2] at h
        obtain ⟨k, hk, e⟩ := ih t (pos + 1) _ st' (by omega) h0.2 h
        exact ⟨k, .gap (by rcases c2 with rfl | rfl <;> rfl) hk, e⟩
      by_cases c5 : c = 34
      · subst c5
        simp only [jMain, if_neg c1, if_neg c2, if_true] at h
        obtain ⟨b, t', s2, rfl, hb, ha, h2⟩ := str_split t.length t (pos + 1) (pos + 1) st st' (Nat.le_refl _) h0.2 h
        simp only [jAlloc] at ha
        cases ha
        obtain ⟨k, hk, e⟩ := ih t' _ _ st' (by simp at hl; omega) (by have := h0.2; simp at this; exact this.2) h2
        exact ⟨k + 1, .string hb hk, by simp at e; omega⟩
      by_cases c6 : gapChar c = true
      · rw [jMain_skip _ _ _ (gap_cases c6)] at h
        obtain ⟨k, hk, e⟩ := ih t (pos + 1) _ st' (by omega) h0.2 h
        exact ⟨k, .gap (by simp [stopChar, c6]) hk, e⟩
      · cases hm : jMain none c pos st with
        | error e => rw [hm] at h; cases h
        | ok x =>
          rw [hm] at h
          obtain ⟨hw, e⟩ := jMain_other (fun e => c1 (Or.inl e)) (fun e => c1 (Or.inr e)) (fun e => c2 (Or.inl e)) (fun e => c2 (Or.inr e)) c5
            (by simpa using c6) hm
          subst e
          obtain ⟨w, t', s2, rfl, hws, hst, ha, h2⟩ := prim_split t (pos + 1) pos st st' h0.2 h
          simp only [jAlloc] at ha
          cases ha
          obtain ⟨k, hk, e⟩ := ih t' _ _ st' (by simp at hl; omega) (by have := h0.2; simp at this; exact this.2) h2
          exact ⟨k + 1, Lexes.word (w := c :: w) ⟨c, w, rfl, hw, c5, fun e => c1 (Or.inr e), fun e => c1 (Or.inl e), hws⟩ hst hk,
            by simp at e; omega⟩

/-- In the counting pass: `k` tokens so far, where a word at the end may not have been counted yet. -/
def AtCount (k : Nat) (m : JMode) (st : JState) : Prop :=
  (m = .main ∧ st = ⟨k, []⟩) ∨ ∃ a k', m = .prim a ∧ st = ⟨k', []⟩ ∧ k = k' + 1

theorem AtCount.step {k : Nat} {m : JMode} {st : JState} (h : AtCount k m st) {c : UInt8} (hc : stopChar c = true) (pos : Nat) :
    jStep none c pos m st = .ok (.main, ⟨k, []⟩) := by
  have hmain : ∀ st, jMain none c pos st = .ok (.main, st) := by
    intro st
    simp only [stopChar, Bool.or_eq_true, beq_iff_eq] at hc
    rcases hc with (hc | rfl) | rfl
    · exact jMain_skip _ _ _ (gap_cases hc)
    · simp [jMain]
    · simp [jMain]
  rcases h with ⟨rfl, rfl⟩ | ⟨a, k', rfl, rfl, rfl⟩
  · exact hmain _
  · simp only [jStep, primStop_eq, hc, if_true, jAlloc, hmain]

theorem lexes_count {t : Bytes} {n : Nat} (h : Lexes t n) (pos k : Nat) (m : JMode) (st : JState) (ha : AtCount k m st)
    (hm : m = .main ∨ Stops t) : ∃ m' st', jRun none t pos m st = .ok (m', st') ∧ AtCount (k + n) m' st' := by
  have eq_main : ∀ {k st}, AtCount k .main st → st = ⟨k, []⟩ := by
    rintro k st (⟨-, h⟩ | ⟨a, k', h, -⟩)
    · exact h
    · cases h
  induction h generalizing pos k m st with
  | nil => exact ⟨m, st, rfl, ha⟩
  | @gap c t n hc _ ih =>
    obtain ⟨m', st', e, ha'⟩ := ih (pos + 1) k .main _ (Or.inl ⟨rfl, rfl⟩) (Or.inl rfl)
    refine ⟨m', st', ?_, ha'⟩
    simp only [jRun, ha.step hc]
    exact e
  | @opening c t n hc _ ih =>
    have := not_stops (by rcases hc with rfl | rfl <;> decide) hm
    subst this
    have := eq_main ha
    subst this
    obtain ⟨m', st', e, ha'⟩ := ih (pos + 1) (k + 1) .main _ (Or.inl ⟨rfl, rfl⟩) (Or.inl rfl)
    refine ⟨m', st', ?_, by rwa [show k + (n + 1) = k + 1 + n by omega]⟩
    simp only [jRun, jStep, jMain, if_pos hc.symm, jAlloc]
    exact e
  | @string b t n hb _ ih =>
    have := not_stops (by decide) hm
    subst this
    have := eq_main ha
    subst this
    obtain ⟨m', st', e, ha'⟩ := ih (pos + 1 + b.length + 1) (k + 1) .main _ (Or.inl ⟨rfl, rfl⟩) (Or.inl rfl)
    refine ⟨m', st', ?_, by rwa [show k + (n + 1) = k + 1 + n by omega]⟩
    have h2 : jRun none (34 :: (b ++ 34 :: t)) pos .main ⟨k, []⟩ = jRun none (b ++ 34 :: t) (pos + 1) (.str (pos + 1) .plain) ⟨k, []⟩ := rfl
    rw [h2, jRun_append (quoted_run _ hb _ _ _)]
    simp only [jRun, jStep, if_true, jAlloc]
    exact e
  | @word w t n hw hs _ ih =>
    have hm' : m = .main := by
      obtain ⟨c, w', rfl, hc, -⟩ := hw
      refine not_stops (c := c) ?_ hm
      have := (wordChar_facts hc).1
      rwa [primStop_eq] at this
    subst hm'
    have := eq_main ha
    subst this
    obtain ⟨m', st', e, ha'⟩ := ih (pos + w.length) (k + 1) (.prim pos) ⟨k, []⟩ (Or.inr ⟨pos, k, rfl, rfl, rfl⟩) (Or.inr hs)
    refine ⟨m', st', ?_, by rwa [show k + (n + 1) = k + 1 + n by omega]⟩
    rw [jRun_append (word_run _ hw _ _)]
    exact e

/-! ## Both passes -/

theorem cString_zero (t : Bytes) : 0 ∉ cString t := by
  intro hx
  have := List.all_takeWhile (p := (· != (0 : UInt8))) (l := t)
  rw [List.all_eq_true] at this
  have := this 0 hx
  simp at this

/-- A NUL ends the text. -/
theorem jLoop_cString (cap : Option Nat) (t : Bytes) (pos : Nat) (m : JMode) (st st' : JState) :
    jLoop cap t pos m st = .ok st' ↔ jLoop cap (cString t) pos m st = .ok st' := by
  have hend : jEnd cap pos true m st = .ok st' ↔ jEnd cap pos false m st = .ok st' := by
    cases m with
    | main => exact Iff.rfl
    | prim a => exact Iff.rfl
    | str a sm => cases sm <;> simp [jEnd]
  induction t generalizing pos m st with
  | nil => exact Iff.rfl
  | cons c t ih =>
    by_cases hc : c = 0
    · subst hc
      rw [jLoop, if_pos rfl]
      exact hend
    · have : cString (c :: t) = c :: cString t := by simp [cString, hc]
      rw [this, jLoop, jLoop, if_neg hc, if_neg hc]
      cases jStep cap c pos m st with
      | error e => exact Iff.rfl
      | ok x =>
        refine ih _ _ _ ?_
        obtain ⟨m2, st2⟩ := x
        cases m2 with
        | main => exact Iff.rfl
        | prim a => exact Iff.rfl
        | str a sm => cases sm <;> simp [jEnd]

/-- The counting pass accepts exactly the texts made of words, strings, braces and brackets. -/
theorem jsmnCount_iff {t : Bytes} {n : Nat} : jsmnCount t = .ok n ↔ Lexes (cString t) n := by
  unfold jsmnCount
  constructor
  · intro h
    cases hj : jLoop none t 0 .main ⟨0, []⟩ with
    | error e => rw [hj] at h; cases h
    | ok st =>
      rw [hj] at h
      cases h
      obtain ⟨k, hk, e⟩ := count_lexes _ _ 0 ⟨0, []⟩ st (Nat.le_refl _) (cString_zero t) ((jLoop_cString _ _ _ _ _ _).mp hj)
      simp at e
      rwa [e]
  · intro h
    obtain ⟨m, st, e, ha⟩ := lexes_count h 0 0 .main ⟨0, []⟩ (Or.inl ⟨rfl, rfl⟩) (Or.inl rfl)
    have h1 := jLoop_run (b := []) (cString_zero t) e
    rw [List.append_nil, jLoop] at h1
    have h2 : jLoop none (cString t) 0 .main ⟨0, []⟩ = .ok ⟨n, []⟩ := by
      rw [h1]
      rw [Nat.zero_add] at ha
      rcases ha with ⟨rfl, rfl⟩ | ⟨a, k', rfl, rfl, rfl⟩
      · simp [jEnd]
      · simp [jEnd, jAlloc]
    rw [(jLoop_cString _ _ _ _ _ _).mpr h2]

/-- The storing pass accepts exactly the sequences of items. -/
theorem jsmnParse_items {t : Bytes} {cap : Nat} {x : Nat × List Tok} (h : jsmnParse t cap = .ok x) : ∃ l, Items (cString t) l := by
  unfold jsmnParse at h
  cases hj : jLoop (some cap) t 0 .main ⟨0, []⟩ with
  | error e => rw [hj] at h; cases h
  | ok st =>
    have i : JInv 0 .main ⟨0, []⟩ := ⟨rfl, fun t ht => (nomatch ht), trivial⟩
    have := parse_closes _ _ 0 _ st (Nat.le_refl _) (cString_zero t) i ((jLoop_cString _ _ _ _ _ _).mp hj)
    simp only [opens, List.filterMap_nil] at this
    cases this with
    | nil h => exact ⟨_, h⟩

theorem items_lexes {t : Bytes} {l : List Item} (h : Items t l) (h0 : 0 ∉ t) : Lexes t (total l) := by
  obtain ⟨toks, h1, h2, -⟩ := items_toks h [] [0] (Ends.sharp ⟨0, [], rfl, rfl⟩ _)
  have := (h2.loop h0).1
  rw [jsmnCount_iff, h1] at this
  have hc : cString t = t := by
    have hall : ∀ t : Bytes, 0 ∉ t → cString t = t := by
      intro t
      induction t with
      | nil => intro; rfl
      | cons c t ih =>
        intro h0
        simp only [List.mem_cons, not_or] at h0
        have := ih h0.2
        have hc : ¬ c = 0 := fun e => h0.1 e.symm
        simp only [cString] at this ⊢
        simp [hc, this]
    exact hall t h0
  rwa [hc] at this

end L8w8jwt
