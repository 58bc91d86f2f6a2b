import Verif.Proofs.Jsmn
/-!
# What the tokens of the tokenizer look like in the text
-/

namespace L8w8jwt
open Spec

/-- Characters skipped between tokens. -/
def skipped (c : UInt8) : Bool := c == 9 || c == 13 || c == 10 || c == 32 || c == 58 || c == 44

/-- The token's type fits the characters of the text. -/
def Shape (js : Bytes) (t : Tok) : Prop :=
  0 ≤ t.start ∧
  match t.type with
  | .string => 1 ≤ t.start ∧ t.start ≤ t.end_ ∧ js[t.start.toNat - 1]? = some 34 ∧ js[t.end_.toNat]? = some 34
  | .object => js[t.start.toNat]? = some 123 ∧ (t.end_ = -1 ∨ 1 ≤ t.end_ ∧ js[t.end_.toNat - 1]? = some 125)
  | .array => js[t.start.toNat]? = some 91 ∧ (t.end_ = -1 ∨ 1 ≤ t.end_ ∧ js[t.end_.toNat - 1]? = some 93)
  | .primitive => t.start ≤ t.end_ ∧ ∃ c, js[t.start.toNat]? = some c ∧ c ≠ 34 ∧ c ≠ 91 ∧ c ≠ 123 ∧ c ≠ 93 ∧ c ≠ 125 ∧ skipped c = false
  | .undefined => False
  | .other => False

theorem get_app {js : Bytes} {i : Nat} {c : UInt8} (h : js[i]? = some c) (x : Bytes) : (js ++ x)[i]? = some c := by
  rw [List.getElem?_append_left (by exact (List.getElem?_eq_some_iff.mp h).1)]
  exact h

theorem Shape.app {js : Bytes} {t : Tok} (h : Shape js t) (x : Bytes) : Shape (js ++ x) t := by
  unfold Shape at h ⊢
  refine ⟨h.1, ?_⟩
  have h := h.2
  split at h
  · exact ⟨h.1, h.2.1, get_app h.2.2.1 x, get_app h.2.2.2 x⟩
  · exact ⟨get_app h.1 x, h.2.imp id (fun a => ⟨a.1, get_app a.2 x⟩)⟩
  · exact ⟨get_app h.1 x, h.2.imp id (fun a => ⟨a.1, get_app a.2 x⟩)⟩
  · obtain ⟨h0, c, h1, h2⟩ := h; exact ⟨h0, c, get_app h1 x, h2⟩
  · exact h
  · exact h

/-- Where the text of a token starts (a string starts with its quotation mark). -/
def Tok.at (t : Tok) : Int := if t.type = .string then t.start - 1 else t.start

theorem take_app_of_stop {js x : Bytes} {i : Nat} {c : UInt8} (h : js[i]? = some c) (hc : skipped c = false) :
    (js ++ x).takeWhile skipped = js.takeWhile skipped := by
  induction js generalizing i with
  | nil => simp at h
  | cons d js ih =>
    rw [List.cons_append]
    cases hd : skipped d with
    | false => simp [List.takeWhile, hd]
    | true =>
      simp only [List.takeWhile, hd]
      cases i with
      | zero => simp at h; rw [h] at hd; rw [hd] at hc; cases hc
      | succ i => rw [ih (by simpa using h)]

theorem take_app_all {js : Bytes} (h : js.all skipped = true) (c : UInt8) (x : Bytes) (hc : skipped c = false) :
    (js ++ c :: x).takeWhile skipped = js := by
  induction js with
  | nil => simp [List.takeWhile, hc]
  | cons d js ih =>
    simp only [List.all_cons, Bool.and_eq_true] at h
    rw [List.cons_append]
    simp only [List.takeWhile, h.1]
    rw [ih h.2]

/-- A stored token contains a character that is not skipped. -/
theorem Shape.stop {js : Bytes} {t : Tok} (h : Shape js t) : ∃ (i : Nat) (c : UInt8), js[i]? = some c ∧ skipped c = false := by
  have h := h.2
  split at h
  · exact ⟨_, _, h.2.2.1, by decide⟩
  · exact ⟨_, _, h.1, by decide⟩
  · exact ⟨_, _, h.1, by decide⟩
  · obtain ⟨-, c, h1, h2⟩ := h; exact ⟨_, c, h1, h2.2.2.2.2.2⟩
  · exact h.elim
  · exact h.elim

/-- What is known about the position in the text, by mode. -/
def ModeAt (js : Bytes) : JMode → Prop
  | .main => True
  | .str a _ => 1 ≤ a ∧ a ≤ js.length ∧ js[a - 1]? = some 34
  | .prim a => a ≤ js.length ∧ ∃ c, js[a]? = some c ∧ c ≠ 34 ∧ c ≠ 91 ∧ c ≠ 123 ∧ c ≠ 93 ∧ c ≠ 125 ∧ skipped c = false

/-- What is known about it as long as there are no tokens. -/
def LeadAt (js : Bytes) : JMode → Prop
  | .main => js.all skipped = true
  | .str a _ => a = (js.takeWhile skipped).length + 1
  | .prim a => a = (js.takeWhile skipped).length

/-- The invariant: `js` has been consumed. -/
structure JTxt (js : Bytes) (m : JMode) (st : JState) : Prop where
  toks : ∀ t ∈ st.toks, Shape js t
  mode : ModeAt js m
  first : ∀ a, (st.toks.map Tok.at).getLast? = some a → a = (js.takeWhile skipped).length
  none : st.toks = [] → LeadAt js m

theorem first_app {js : Bytes} {l : List Tok} (hs : ∀ t ∈ l, Shape js t)
    (hf : ∀ a, (l.map Tok.at).getLast? = some a → a = (js.takeWhile skipped).length) (x : Bytes) :
    ∀ a, (l.map Tok.at).getLast? = some a → a = ((js ++ x).takeWhile skipped).length := by
  intro a ha
  have hm := List.mem_of_getLast? ha
  obtain ⟨t, ht, -⟩ := List.mem_map.mp hm
  obtain ⟨i, c, h1, h2⟩ := (hs t ht).stop
  rw [take_app_of_stop h1 h2]
  exact hf a ha

theorem JTxt.keep {js : Bytes} {m m' : JMode} {st : JState} (i : JTxt js m st) (x : Bytes) (hm : ModeAt (js ++ x) m')
    (hn : st.toks = [] → LeadAt (js ++ x) m') : JTxt (js ++ x) m' st :=
  ⟨fun t ht => (i.toks t ht).app x, hm, first_app i.toks i.first x, hn⟩

theorem JTxt.alloc {n : Nat} {js : Bytes} {m m' : JMode} {st st' : JState} {t : Tok} (i : JTxt js m st) (x : Bytes)
    (h : jAlloc (some n) st t = .ok st') (ht : Shape (js ++ x) t)
    (hf : st.toks = [] → t.at = ((js ++ x).takeWhile skipped).length) (hm : ModeAt (js ++ x) m') : JTxt (js ++ x) m' st' := by
  simp only [jAlloc] at h
  split at h
  · cases h
  · cases h
    refine ⟨fun y hy => ?_, hm, fun a ha => ?_, fun he => nomatch he⟩
    · rcases List.mem_cons.mp hy with rfl | hy
      · exact ht
      · exact (i.toks y hy).app x
    · cases he : st.toks with
      | nil =>
        simp only [he, List.map_cons, List.map_nil, List.getLast?_singleton, Option.some.injEq] at ha
        rw [← ha]; exact hf he
      | cons y l =>
        refine first_app i.toks i.first x a ?_
        simp only [List.map_cons, he] at ha ⊢
        rwa [List.getLast?_cons_cons] at ha

theorem jClose_shape {type : JType} {js : Bytes} {c : UInt8} (hc : (type = .object ∧ c = 125) ∨ (type = .array ∧ c = 93)) (l l' : List Tok)
    (hl : ∀ t ∈ l, Shape js t) (h : jClose type (js.length + 1) l = .ok l') :
    (∀ t ∈ l', Shape (js ++ [c]) t) ∧ l'.map Tok.at = l.map Tok.at := by
  induction l generalizing l' with
  | nil => cases h
  | cons t ts ih =>
    simp only [jClose] at h
    by_cases h1 : t.start ≠ -1 ∧ t.end_ = -1
    · rw [if_pos h1] at h
      by_cases h2 : t.type ≠ type
      · rw [if_pos h2] at h; cases h
      · rw [if_neg h2] at h
        cases h
        refine ⟨fun x hx => ?_, rfl⟩
        rcases List.mem_cons.mp hx with rfl | hx
        · have hs := hl t (by simp)
          unfold Shape at hs ⊢
          refine ⟨hs.1, ?_⟩
          have h2 : t.type = type := by simpa using h2
          have hs := hs.2
          have hlast : (js ++ [c])[(↑(js.length + 1) : Int).toNat - 1]? = some c := by simp
          rcases hc with ⟨rfl, rfl⟩ | ⟨rfl, rfl⟩
          · simp only [h2] at hs ⊢
            exact ⟨get_app hs.1 _, Or.inr ⟨by omega, hlast⟩⟩
          · simp only [h2] at hs ⊢
            exact ⟨get_app hs.1 _, Or.inr ⟨by omega, hlast⟩⟩
        · exact (hl x (by simp [hx])).app _
    · rw [if_neg h1] at h
      generalize hg : jClose type (js.length + 1) ts = y at h
      cases y with
      | error e => cases h
      | ok ts' =>
        cases h
        obtain ⟨h1, h2⟩ := ih ts' (fun x hx => hl x (by simp [hx])) hg
        refine ⟨fun x hx => ?_, by simp [h2]⟩
        rcases List.mem_cons.mp hx with rfl | hx
        · exact (hl x (by simp)).app _
        · exact h1 x hx

theorem get_last (js : Bytes) (c : UInt8) : (js ++ [c])[js.length]? = some c := by simp

theorem JTxt.main {n : Nat} {js : Bytes} {c : UInt8} {m' : JMode} {st st' : JState} (i : JTxt js .main st)
    (h : jMain (some n) c js.length st = .ok (m', st')) : JTxt (js ++ [c]) m' st' := by
  unfold jMain at h
  have lead : st.toks = [] → skipped c = false → ((js ++ [c]).takeWhile skipped).length = js.length := by
    intro he hc
    rw [take_app_all (i.none he) c [] hc]
  by_cases h1 : c = 123 ∨ c = 91
  · rw [if_pos h1] at h
    generalize hg : jAlloc (some n) st _ = x at h
    cases x with
    | error e => cases h
    | ok x =>
      cases h
      have hc : skipped c = false := by rcases h1 with rfl | rfl <;> decide
      refine i.alloc [c] hg ?_ (fun he => ?_) trivial
      · unfold Shape
        refine ⟨by simp, ?_⟩
        rcases h1 with rfl | rfl
        · exact ⟨get_last js _, Or.inl rfl⟩
        · exact ⟨get_last js _, Or.inl rfl⟩
      · rw [lead he hc]
        rcases h1 with rfl | rfl <;> rfl
  · rw [if_neg h1] at h
    by_cases h2 : c = 125 ∨ c = 93
    · rw [if_pos h2] at h
      simp only at h
      generalize hg : jClose _ (js.length + 1) st.toks = x at h
      cases x with
      | error e => cases h
      | ok ts =>
        cases h
        obtain ⟨h3, h4⟩ := jClose_shape (c := c) (by rcases h2 with rfl | rfl <;> simp) _ _ i.toks hg
        refine ⟨h3, trivial, ?_, fun he => ?_⟩
        · simp only [h4]
          exact first_app i.toks i.first [c]
        · simp only at he
          rw [he] at h4
          have : st.toks = [] := by simpa using h4.symm
          rw [this] at hg
          cases hg
    · rw [if_neg h2] at h
      by_cases h3 : c = 34
      · rw [if_pos h3] at h
        cases h
        refine i.keep [c] ⟨by omega, by simp, ?_⟩ (fun he => ?_)
        · rw [h3]; exact get_last js _
        · show js.length + 1 = _
          rw [lead he (by rw [h3]; decide)]
      · rw [if_neg h3] at h
        by_cases h4 : c = 9 ∨ c = 13 ∨ c = 10 ∨ c = 32 ∨ c = 58 ∨ c = 44
        · rw [if_pos h4] at h
          cases h
          refine i.keep [c] trivial (fun he => ?_)
          have hj : js.all skipped = true := i.none he
          have hc : skipped c = true := by rcases h4 with rfl | rfl | rfl | rfl | rfl | rfl <;> decide
          simp only [LeadAt, List.all_append, hj, hc, List.all_cons, List.all_nil, Bool.and_true]
        · rw [if_neg h4] at h
          by_cases h5 : c < 32 ∨ 127 ≤ c
          · rw [if_pos h5] at h; cases h
          · rw [if_neg h5] at h
            cases h
            have hc : skipped c = false := by
              simp only [not_or] at h4
              simp only [skipped, Bool.or_eq_false_iff, beq_eq_false_iff_ne, ne_eq]
              exact ⟨⟨⟨⟨⟨h4.1, h4.2.1⟩, h4.2.2.1⟩, h4.2.2.2.1⟩, h4.2.2.2.2.1⟩, h4.2.2.2.2.2⟩
            simp only [not_or] at h1 h2
            refine i.keep [c] ⟨by simp, c, get_last js c, h3, h1.2, h1.1, h2.2, h2.1, hc⟩ (fun he => ?_)
            show js.length = _
            rw [lead he hc]

theorem lead_app {js x : Bytes} {m : JMode} (hm : ModeAt js m) (hn : m ≠ .main) (hl : LeadAt js m) : LeadAt (js ++ x) m := by
  cases m with
  | main => exact absurd rfl hn
  | str a sm =>
    simp only [LeadAt] at hl ⊢
    rw [take_app_of_stop hm.2.2 (by decide)]
    exact hl
  | prim a =>
    simp only [LeadAt] at hl ⊢
    obtain ⟨-, c, h1, -, -, -, -, -, h2⟩ := hm
    rw [take_app_of_stop h1 h2]
    exact hl

theorem mode_app {js x : Bytes} {m : JMode} (hm : ModeAt js m) : ModeAt (js ++ x) m := by
  cases m with
  | main => trivial
  | str a sm => exact ⟨hm.1, by have := hm.2.1; simp; omega, get_app hm.2.2 x⟩
  | prim a =>
    obtain ⟨h0, c, h1, h2⟩ := hm
    exact ⟨by simp; omega, c, get_app h1 x, h2⟩

theorem JTxt.step {n : Nat} {js : Bytes} {c : UInt8} {m m' : JMode} {st st' : JState} (i : JTxt js m st)
    (h : jStep (some n) c js.length m st = .ok (m', st')) : JTxt (js ++ [c]) m' st' := by
  cases m with
  | main => exact i.main h
  | str a sm =>
    have keep : ∀ sm', JTxt (js ++ [c]) (.str a sm') st := fun sm' =>
      i.keep [c] (mode_app (m := .str a sm') i.mode) (fun he => lead_app (m := .str a sm') i.mode (by simp) (i.none he))
    cases sm with
    | plain =>
      simp only [jStep] at h
      by_cases h1 : c = 34
      · rw [if_pos h1] at h
        generalize hg : jAlloc (some n) st _ = x at h
        cases x with
        | error e => cases h
        | ok x =>
          cases h
          obtain ⟨m1, m2, m3⟩ := i.mode
          refine i.alloc [c] hg ⟨by simp, ?_⟩ (fun he => ?_) trivial
          · refine ⟨by dsimp only; omega, by dsimp only; omega, get_app m3 _, ?_⟩
            rw [h1]; exact get_last js _
          · have := i.none he
            simp only [LeadAt] at this
            rw [take_app_of_stop m3 (by decide)]
            simp only [Tok.at, if_true]
            omega
      · rw [if_neg h1] at h
        split at h <;> · cases h; exact keep _
    | esc =>
      simp only [jStep] at h
      split at h
      · cases h; exact keep _
      · split at h <;> cases h
        exact keep _
    | hex k =>
      simp only [jStep] at h
      split at h <;> cases h
      exact keep _
  | prim a =>
    simp only [jStep] at h
    by_cases h1 : primStop c = true
    · rw [if_pos h1] at h
      generalize hg : jAlloc (some n) st _ = x at h
      cases x with
      | error e => cases h
      | ok x =>
        obtain ⟨m1, d, m2, m3⟩ := i.mode
        have i' : JTxt (js ++ []) .main x := by
          refine i.alloc [] hg ⟨by simp, ?_⟩ (fun he => ?_) trivial
          · exact ⟨by dsimp only; omega, d, get_app m2 _, m3⟩
          · have := i.none he
            simp only [LeadAt] at this
            simp [Tok.at, this]
        rw [List.append_nil] at i'
        exact i'.main h
    · rw [if_neg h1] at h
      split at h <;> cases h
      exact i.keep [c] (mode_app i.mode) (fun he => lead_app i.mode (by simp) (i.none he))

theorem JTxt.fin {n : Nat} {js : Bytes} {nul : Bool} {m : JMode} {st st' : JState} (i : JTxt js m st)
    (h : jEnd (some n) js.length nul m st = .ok st') : JTxt js .main st' := by
  cases m with
  | main =>
    simp only [jEnd] at h
    split at h
    · cases h
    · cases h; exact i
  | str a sm => cases sm <;> simp only [jEnd] at h <;> (try split at h) <;> cases h
  | prim a =>
    simp only [jEnd] at h
    generalize hg : jAlloc (some n) st _ = x at h
    cases x with
    | error e => cases h
    | ok x =>
      obtain ⟨m1, d, m2, m3⟩ := i.mode
      have i' : JTxt (js ++ []) .main x := by
        refine i.alloc [] hg ⟨by simp, ?_⟩ (fun he => ?_) trivial
        · exact ⟨by dsimp only; omega, d, get_app m2 _, m3⟩
        · have := i.none he
          simp only [LeadAt] at this
          simp [Tok.at, this]
      rw [List.append_nil] at i'
      simp only at h
      split at h
      · cases h
      · cases h; exact i'

theorem jLoop_txt {n : Nat} (t pre : Bytes) (m : JMode) (st st' : JState) (i : JTxt pre m st)
    (h : jLoop (some n) t pre.length m st = .ok st') : JTxt (pre ++ cString t) .main st' := by
  induction t generalizing pre m st with
  | nil => simpa [cString] using i.fin h
  | cons c t ih =>
    simp only [jLoop] at h
    by_cases h0 : c = 0
    · rw [if_pos h0] at h
      have : cString (c :: t) = [] := by simp [cString, h0]
      rw [this, List.append_nil]
      exact i.fin h
    · rw [if_neg h0] at h
      have : cString (c :: t) = c :: cString t := by simp [cString, h0]
      rw [this]
      generalize hg : jStep (some n) c pre.length m st = x at h
      cases x with
      | error e => cases h
      | ok x =>
        obtain ⟨m', st1⟩ := x
        have := ih (pre ++ [c]) m' st1 (i.step hg) (by simpa using h)
        simpa using this

/-- The tokens fit the text, and the first one starts at the first character that is not skipped. -/
theorem jsmnParse_shape {js : Bytes} {cap r : Nat} {toks : List Tok} (h : jsmnParse js cap = .ok (r, toks)) :
    (∀ t ∈ toks, Shape (cString js) t) ∧ (∀ t, toks.head? = some t → t.at = ((cString js).takeWhile skipped).length) := by
  unfold jsmnParse at h
  generalize hg : jLoop (some cap) js 0 .main ⟨0, []⟩ = x at h
  cases x with
  | error e => cases h
  | ok st =>
    cases h
    have i : JTxt ([] ++ cString js) .main st :=
      jLoop_txt js [] .main ⟨0, []⟩ st ⟨(fun _ hx => nomatch hx), trivial, (fun _ hx => nomatch hx), fun _ => rfl⟩ hg
    rw [List.nil_append] at i
    refine ⟨fun t ht => i.toks t (by simpa using ht), fun t ht => i.first _ ?_⟩
    rw [List.head?_reverse] at ht
    simp [List.getLast?_map, ht]

end L8w8jwt
