import Verif.Proofs.LooseMain
import Verif.Proofs.DecodeMain
/-!
# Relaxed JSON in tokens
-/

namespace L8w8jwt
open Spec

variable {env : Env} {s : Sched} {h : Heap}

/-! ## The octet behind the text -/

theorem letter_val {c : UInt8} (h : letter c = true) : 97 ≤ c.toNat ∧ c.toNat % 16 ≠ 0 := by
  have : ∀ c : UInt8, (!letter c || (decide (97 ≤ c.toNat) && decide (c.toNat % 16 ≠ 0))) = true := byte_all (by decide +kernel)
  have := this c
  rw [h] at this
  simpa using this

theorem word_val {c : UInt8} (h : wordChar c = true) : 32 ≤ c.toNat := by
  have : ∀ c : UInt8, (!wordChar c || decide (32 ≤ c.toNat)) = true := byte_all (by decide +kernel)
  have := this c
  rw [h] at this
  simpa using this

/-- If what is left over of the last group starts with a letter, then the data ends with a control character, or the last but
one is. -/
theorem leftover_letter : ∀ (r d : Bytes) (c : UInt8), decodeGroups true r = some d → (leftoverGroups true r).head? = some c →
    letter c = true → (∃ u x, d = u ++ [x] ∧ wordChar x = false) ∨ ∃ u x y, d = u ++ [x, y] ∧ x.toNat ≤ 3
  | [], _, _, _, h, _ => by simp [leftoverGroups] at h
  | [_], _, _, _, h, _ => by simp [leftoverGroups] at h
  | [_, _], _, _, _, h, _ => by simp [leftoverGroups] at h
  | [_, _, _], _, _, _, h, _ => by simp [leftoverGroups] at h
  | a :: b :: e :: f :: t, d, c, hd, h, hl => by
    rw [decodeGroups] at hd
    rw [leftoverGroups] at h
    obtain ⟨l1, l2⟩ := letter_val hl
    have va := val_lt true a
    have vb := val_lt true b
    have ve := val_lt true e
    have vf := val_lt true f
    have pad : ∀ x : UInt8, x = 61 → (b64Value true x).getD 0 = 0 := by intro x hx; subst hx; rfl
    have cnt : ([a, b, e, f] : Bytes).count 61 = (if a = 61 then 1 else 0) + (if b = 61 then 1 else 0) + (if e = 61 then 1 else 0) +
        (if f = 61 then 1 else 0) := by
      simp only [List.count_cons, List.count_nil, beq_iff_eq]
      omega
    by_cases p0 : ([a, b, e, f] : Bytes).count 61 = 0
    · simp only [if_pos p0] at h hd
      cases hg : decodeGroups true t with
      | none => rw [hg] at hd; cases hd
      | some d' =>
        rw [hg] at hd
        cases hd
        rcases leftover_letter t d' c hg h hl with ⟨u, x, rfl, hx⟩ | ⟨u, x, y, rfl, hx⟩
        · exact Or.inl ⟨groupBytes true a b e f ++ u, x, by simp, hx⟩
        · exact Or.inr ⟨groupBytes true a b e f ++ u, x, y, by simp, hx⟩
    · simp only [if_neg p0] at h hd
      by_cases p2 : ([a, b, e, f] : Bytes).count 61 ≤ 2
      · rw [if_pos p2] at hd
        cases hd
        generalize ([a, b, e, f] : Bytes).count 61 = p at *
        have hp : p = 1 ∨ p = 2 := by omega
        simp only [groupBytes] at h ⊢
        rcases hp with rfl | rfl
        · simp only [List.drop_succ_cons, List.drop_zero, List.head?_cons, Option.some.injEq, List.take_succ_cons, List.take_zero] at h ⊢
          rw [← h, UInt8.toNat_ofNat'] at l1 l2
          have : a = 61 ∨ b = 61 ∨ e = 61 ∨ f = 61 := by
            by_cases h1 : a = 61
            · exact Or.inl h1
            · by_cases h2 : b = 61
              · exact Or.inr (Or.inl h2)
              · by_cases h3 : e = 61
                · exact Or.inr (Or.inr (Or.inl h3))
                · by_cases h4 : f = 61
                  · exact Or.inr (Or.inr (Or.inr h4))
                  · simp [h1, h2, h3, h4] at cnt
          rcases this with h1 | h1 | h1 | h1
          · right
            refine ⟨[], _, _, rfl, ?_⟩
            rw [UInt8.toNat_ofNat', pad _ h1]
            omega
          · left
            refine ⟨[_], _, rfl, ?_⟩
            cases hw : wordChar _ with
            | false => rfl
            | true =>
              have := word_val hw
              rw [UInt8.toNat_ofNat', pad _ h1] at this
              omega
          · rw [pad _ h1] at l1
            omega
          · rw [pad _ h1] at l2
            omega
        · simp only [List.drop_succ_cons, List.drop_zero, List.head?_cons, Option.some.injEq, List.take_succ_cons, List.take_zero] at h ⊢
          rw [← h, UInt8.toNat_ofNat'] at l1 l2
          left
          refine ⟨[], _, rfl, ?_⟩
          cases hw : wordChar _ with
          | false => rfl
          | true =>
            have := word_val hw
            rw [UInt8.toNat_ofNat'] at this
            by_cases h1 : a = 61
            · rw [pad _ h1] at this
              omega
            · by_cases h2 : b = 61
              · rw [pad _ h2] at l1
                omega
              · have h3 : e = 61 := by
                  by_cases h3 : e = 61
                  · exact h3
                  · simp [h1, h2, h3] at cnt
                    split at cnt <;> omega
                have h4 : f = 61 := by
                  by_cases h4 : f = 61
                  · exact h4
                  · simp [h1, h2, h3, h4] at cnt
                rw [pad _ h3, pad _ h4] at l2
                omega
      · rw [if_neg p2] at hd
        cases hd

/-- Control characters are followed by quotation marks. -/
def Ctl (t : Bytes) : Prop := ∀ u x v, t = u ++ x :: v → x.toNat ≤ 3 → 34 ∈ v

theorem Ctl.append {a b : Bytes} (ha : Ctl a) (hb : Ctl b) : Ctl (a ++ b) := by
  intro u x v e h2
  rcases List.append_eq_append_iff.mp e with ⟨a', rfl, e'⟩ | ⟨c', rfl, e'⟩
  · exact hb a' x v e' h2
  · cases c' with
    | nil => exact hb [] x v e'.symm h2
    | cons y c' =>
      obtain ⟨e1, e2⟩ := List.cons.inj e'
      subst e1
      rw [e2]
      exact List.mem_append_left _ (ha u x c' rfl h2)

theorem Ctl.of_all {a : Bytes} (h : ∀ x ∈ a, ¬ x.toNat ≤ 3) : Ctl a := by
  intro u x v e h2
  exact absurd h2 (h x (by rw [e]; simp))

theorem Ctl.cons {c : UInt8} {a : Bytes} (hc : ¬ c.toNat ≤ 3) (ha : Ctl a) : Ctl (c :: a) :=
  Ctl.append (a := [c]) (.of_all (by simpa using hc)) ha

theorem ctl_string (b : Bytes) : Ctl (34 :: (b ++ [34])) := by
  intro u x v e h2
  have hl := congrArg List.getLast? e
  rw [show (34 :: (b ++ [34]) : Bytes) = (34 :: b) ++ [34] by simp, List.getLast?_append, List.getLast?_append] at hl
  cases v with
  | nil =>
    simp at hl
    subst hl
    exact absurd h2 (by decide)
  | cons y v =>
    have : (x :: y :: v : Bytes).getLast? = some 34 := by simpa using hl.symm
    rw [List.getLast?_cons_cons] at this
    exact List.mem_of_getLast? this

/-- In a sequence of items, control characters are in strings only. -/
theorem items_ctl {t : Bytes} {l : List Item} (h : Items t l) : Ctl t := by
  induction h with
  | nil => intro u x v e; simp at e
  | @gap c t l hc _ ih =>
    refine .cons ?_ ih
    have : ∀ c : UInt8, (!gapChar c || !decide (c.toNat ≤ 3)) = true := byte_all (by decide +kernel)
    have := this c
    rw [hc] at this
    simp at this
    omega
  | @string b t l hb _ ih =>
    have := (ctl_string b).append ih
    simpa using this
  | @word w t l hw hs _ ih =>
    refine Ctl.append (.of_all ?_) ih
    obtain ⟨c, w', rfl, hc, -, -, -, hall⟩ := hw
    intro x hx
    have hx' : wordChar x = true := by
      rcases List.mem_cons.mp hx with rfl | hx
      · exact hc
      · exact hall x hx
    have := word_val hx'
    omega
  | array _ _ iha iht => exact .cons (by decide) (iha.append (.cons (by decide) iht))
  | object _ _ iha iht => exact .cons (by decide) (iha.append (.cons (by decide) iht))

/-- The octet behind the text does not continue its last word. -/
theorem behind_text {a d : Bytes} (hd : b64Decode true a = some d) : d.length < (segBuf a).length ∧ Tail (segBuf a) d.length := by
  have hl := (segBuf_length hd).2
  rw [List.length_append] at hl
  have htake : (segBuf a).take d.length = d := by simp [segBuf, hd, padTo]
  refine ⟨by omega, ?_⟩
  unfold Tail
  rw [htake]
  intro l hi u w e hw c hc
  cases hlet : letter c with
  | false => rfl
  | true =>
    exfalso
    unfold segBuf padTo at hc
    rw [hd, Option.getD_some, List.append_assoc, List.getElem?_append_right (Nat.le_refl _), Nat.sub_self, ← List.head?_eq_getElem?] at hc
    cases hlo : leftover true a with
    | nil =>
      rw [hlo, List.nil_append] at hc
      have := List.mem_of_mem_head? hc
      rw [(List.mem_replicate.mp this).2] at hlet
      exact absurd hlet (by decide)
    | cons x t =>
      rw [hlo, List.cons_append, List.head?_cons] at hc
      cases hc
      have hd' : decodeGroups true (a.filter (relevant true) ++ List.replicate ((4 - (a.filter (relevant true)).length % 4) % 4) 61) = some d := by
        unfold b64Decode at hd
        simp only at hd
        split at hd
        · cases hd
        · exact hd
      have hw' : ∀ x ∈ w, wordChar x = true := by
        obtain ⟨c, w', rfl, hc, -, -, -, hall⟩ := hw
        intro x hx
        rcases List.mem_cons.mp hx with rfl | hx
        · exact hc
        · exact hall x hx
      rcases leftover_letter _ d c hd' (by show (leftover true a).head? = _; rw [hlo]; rfl) hlet with ⟨u', x, e', hx⟩ | ⟨u', x, y, e', hx⟩
      · -- the last character is not part of a word
        have hne : w ≠ [] := by obtain ⟨c, w', rfl, -⟩ := hw; simp
        obtain ⟨w', z, rfl⟩ := (List.eq_nil_or_concat w).resolve_left hne
        rw [List.concat_eq_append] at *
        rw [e', ← List.append_assoc] at e
        have := (List.append_inj' e rfl).2
        cases this
        rw [hw' x (by simp)] at hx
        cases hx
      · have hy : y = 34 := by
          have := items_ctl hi u' x [y] e' hx
          simpa [eq_comm] using this
        subst hy
        have hne : w ≠ [] := by obtain ⟨c, w', rfl, -⟩ := hw; simp
        obtain ⟨w', z, rfl⟩ := (List.eq_nil_or_concat w).resolve_left hne
        rw [List.concat_eq_append] at *
        rw [e', show u' ++ [x, 34] = (u' ++ [x]) ++ [34] by simp, ← List.append_assoc] at e
        obtain ⟨e1, e2⟩ := List.append_inj' e rfl
        cases e2
        rcases List.eq_nil_or_concat w' with rfl | ⟨w'', z, rfl⟩
        · obtain ⟨c, w', e, -, h34, -⟩ := hw
          cases e
          exact h34 rfl
        · rw [List.concat_eq_append, ← List.append_assoc] at e1
          cases (List.append_inj' e1 rfl).2
          have := word_val (hw' x (by simp))
          omega

/-- The claims of a text. -/
theorem claimsIn_parsed {a : Bytes} {ok : Bool} {ds : List DClaim} {n : Nat} {b : Behind}
    (hp : Parsed env.checknum (readText a) ok ds n b) : ∃ vend, ((0 : Int) ≤ vend ∧ vend ≤ (segBuf a).length) ∧
      claimsIn env a = lookBehind env (slots n) n vend b (parseRc ok, ds) := by
  cases hd : b64Decode true a with
  | none =>
    have hj : readText a = [] := by simp [readText, jsonOf, hd, cString]
    rw [hj] at hp
    obtain ⟨rfl, rfl, rfl, rfl⟩ := parsed_unique hp (.empty (fun c hc => (nomatch hc)))
    refine ⟨0, ⟨by omega, by omega⟩, ?_⟩
    unfold claimsIn parsePure
    rw [hd]
    rfl
  | some d =>
    obtain ⟨h1, h2⟩ := behind_text hd
    have htake : (segBuf a).take d.length = d := by simp [segBuf, hd, padTo]
    have hr : readText a = cString ((segBuf a).take d.length) := by rw [htake]; simp [readText, jsonOf, hd]
    rw [hr] at hp
    obtain ⟨vend, hv, e⟩ := parsePure_parsed h1 h2 hp
    refine ⟨vend, hv, ?_⟩
    unfold claimsIn
    rw [hd]
    exact e

theorem fits_look {n : Nat} {b : Behind} (hf : b.Fits n) (vend : Int) (x : Nat × List DClaim) :
    lookBehind env (slots n) n vend b x = .ok x := by
  have hs : ∀ i, i ≤ 63 → n ≤ 63 → i < slots n := by intro i h1 h2; unfold slots; split <;> omega
  cases b with
  | none => rfl
  | one =>
    have : n ≤ 63 := hf
    simp only [lookBehind, slackSlot, if_pos (hs n this this), Except.bind]
  | two =>
    have : n ≤ 62 := hf
    simp only [lookBehind]
    rcases skipNested_ok env (slots n) n vend [] with ⟨l', e, -⟩ | ⟨hx, -⟩
    · rw [e]; rfl
    · have := hs (n + 1) (by omega) (by omega)
      omega

theorem look_ok {n sl : Nat} {b : Behind} {vend : Int} {x y : Nat × List DClaim} (h : lookBehind env sl n vend b x = .ok y) : y = x := by
  cases b with
  | none => cases h; rfl
  | one =>
    simp only [lookBehind] at h
    cases hs : slackSlot env sl n with
    | error e => rw [hs] at h; cases h
    | ok _ => rw [hs] at h; cases h; rfl
  | two =>
    simp only [lookBehind] at h
    cases hs : skipNested env sl n vend [] with
    | error e => rw [hs] at h; cases h
    | ok _ => rw [hs] at h; cases h; rfl

theorem overread_look {n : Nat} {b : Behind} (hb : b ≠ .none) (hn : 64 ≤ n) (vend : Int) (x : Nat × List DClaim) :
    lookBehind env (slots n) n vend b x = .error .oobRead := by
  have hs : ¬ n < slots n := by unfold slots; split <;> omega
  cases b with
  | none => exact absurd rfl hb
  | one => simp only [lookBehind, slackSlot, if_neg hs, Except.bind]
  | two =>
    simp only [lookBehind, skipNested, slackSlot, if_neg hs]
    rfl

/-- What was read from a text. -/
theorem claimsIn_ok {a : Bytes} {rc : Nat} {ds : List DClaim} (h : claimsIn env a = .ok (rc, ds)) :
    ∃ ok n b, Parsed env.checknum (readText a) ok ds n b ∧ rc = parseRc ok ∧ (b = .none ∨ n < 64) := by
  obtain ⟨ok, ds', n, b, hp⟩ := parsed_exist env.checknum (readText a)
  obtain ⟨vend, -, e⟩ := claimsIn_parsed hp
  rw [h] at e
  obtain ⟨rfl, rfl⟩ := Prod.mk.inj (look_ok e.symm)
  refine ⟨ok, n, b, hp, rfl, ?_⟩
  by_cases hb : b = .none
  · exact Or.inl hb
  · by_cases hn : 64 ≤ n
    · rw [overread_look hb hn] at e; cases e
    · exact Or.inr (by omega)

theorem fewItems_iff {t : Bytes} : FewTokens t ↔ FewItems (cString t) := by
  unfold FewTokens FewItems
  simp only [jsmnCount_iff]

theorem leaky_iff {t : Bytes} : LeaksTokens t ↔ Leaky (cString t) := by
  constructor
  · rintro ⟨n, e, hc, hn, hp⟩
    refine ⟨⟨n, jsmnCount_iff.mp hc, hn⟩, fun l hi => ?_⟩
    obtain ⟨toks, -, h2, -⟩ := items_toks hi [] [0] (Ends.sharp ⟨0, [], rfl, rfl⟩ _)
    obtain ⟨h3, h4⟩ := h2.loop (cString_zero t)
    rw [← jsmnCount_cString, hc] at h3
    cases h3
    rw [jsmnParse_cString.mpr (h4 _ (Nat.le_refl _))] at hp
    cases hp
  · rintro ⟨⟨n, hl, hn⟩, hno⟩
    cases hp : jsmnParse t n with
    | error e => exact ⟨n, e, jsmnCount_iff.mpr hl, hn, hp⟩
    | ok x => exact absurd (jsmnParse_items hp) (not_exists.mpr hno)

theorem leakyToken_iff {tok : Bytes} : TokLeak tok ↔ LeakyToken tok := by
  unfold TokLeak LeakyToken readText
  simp only [leaky_iff]

/-- Parsing is defined for roomy texts. -/
theorem claimsIn_roomy {a : Bytes} (hf : Roomy env.checknum (readText a)) : ∃ x, claimsIn env a = .ok x := by
  obtain ⟨ok, ds, n, b, hp⟩ := parsed_exist env.checknum (readText a)
  obtain ⟨vend, -, e⟩ := claimsIn_parsed hp
  rw [fits_look (hf _ _ _ _ hp)] at e
  exact ⟨_, e⟩

/-- Texts with at most 62 items are roomy. -/
theorem few_roomy {num : Bytes → Nat} {t : Bytes} (h0 : 0 ∉ t) (h : FewItems t) : Roomy num t := by
  intro ok ds n b hp
  cases hp with
  | empty => exact trivial
  | noItems => exact trivial
  | noObject => exact trivial
  | @object v l a k ok ds b hi hv ha hp =>
    have hn := h _ (items_lexes hi h0)
    obtain ⟨g, a', k', t', -, -, hvv, ha', -⟩ := items_object hi (by rw [hv]; rfl)
    have : a' = a := by
      rw [hvv] at hv
      simp at hv
      exact hv
    subst this
    rw [items_unique ha ha'] at *
    rw [hvv, total_cons] at hn
    have e : 1 + total (k' ++ l) = 1 + total k' + total l := by simp [total]; omega
    rw [e]
    simp only at hn
    cases b with
    | none => trivial
    | one => show _ ≤ 63; omega
    | two => exact hn

end L8w8jwt
