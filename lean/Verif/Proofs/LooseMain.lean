import Verif.Proofs.LooseParse
/-!
# Parsing claims, for every text
-/

namespace L8w8jwt
open Spec

variable {env : Env} {s : Sched} {h : Heap}

theorem items_object {t : Bytes} {v : Item} {l : List Item} (h : Items t (v :: l)) (hv : v.text.head? = some 123) :
    ∃ g a k t', t = g ++ 123 :: (a ++ 125 :: t') ∧ (∀ c ∈ g, gapChar c = true) ∧ v = ⟨123 :: (a ++ [125]), 1 + total k⟩ ∧
      Items a k ∧ Items t' l := by
  generalize hl : v :: l = l' at h
  induction h with
  | nil => cases hl
  | gap hc _ ih =>
    obtain ⟨g, a, k, t', e, hg, h1, h2, h3⟩ := ih hl
    refine ⟨_ :: g, a, k, t', by rw [e]; rfl, fun x hx => ?_, h1, h2, h3⟩
    rcases List.mem_cons.mp hx with rfl | hx
    · exact hc
    · exact hg x hx
  | string => cases hl; simp at hv
  | word hw => cases hl; exact absurd hv (word_head hw).2.2
  | array => cases hl; simp at hv
  | object ha ht => cases hl; exact ⟨[], _, _, _, rfl, fun _ hx => (nomatch hx), rfl, ha, ht⟩

theorem RunsAt.gaps {g t : Bytes} {pos : Nat} {toks : List Tok} (hg : ∀ c ∈ g, gapChar c = true) (h : RunsAt t (pos + g.length) toks) :
    RunsAt (g ++ t) pos toks := by
  induction g generalizing pos with
  | nil => exact h
  | cons c g ih =>
    refine RunsAt.gap (hg c (by simp)) (ih (fun x hx => hg x (by simp [hx])) ?_)
    rw [List.length_cons] at h
    rwa [show pos + 1 + g.length = pos + (g.length + 1) by omega]

theorem headTok_end_ge {v q : Bytes} (hv : ItemText v q) (pos : Nat) : (pos + v.length : Nat) ≤ (headTok pos v).end_ + 1 := by
  by_cases h : v.head? = some 34
  · obtain ⟨b, -, rfl⟩ := item_string hv h
    simp [headTok]
  · unfold headTok
    rw [if_neg h]
    split
    · simp only; omega
    · split <;> (simp only; omega)

theorem ItemToks.append {json : Bytes} {lo hi : Nat} {k l : List Item} {x y : List Tok} (hk : ItemToks json lo k x) (hl : ItemToks json hi l y)
    (hlo : lo ≤ hi) (hx : ∀ z ∈ x, z.end_ + 1 ≤ hi) : ItemToks json lo (k ++ l) (x ++ y) := by
  induction hk with
  | nil => exact hl.mono hlo
  | @cons lo size p v q nested ts l' e h1 hi' h2 h3 h4 ht ih =>
    have hh := headTok_end_ge hi' p.length
    have hz := hx (headTok p.length v) (by simp)
    have := ih (by omega) (fun z hz => hx z (by simp [hz]))
    rw [List.cons_append, List.cons_append, List.append_assoc]
    exact .cons e h1 hi' h2 h3 h4 this

theorem jsmnCount_cString {t : Bytes} {n : Nat} : jsmnCount t = .ok n ↔ jsmnCount (cString t) = .ok n := by
  have key : ∀ u : Bytes, jsmnCount u = .ok n ↔ ∃ st, jLoop none u 0 .main ⟨0, []⟩ = .ok st ∧ st.count = n := by
    intro u
    unfold jsmnCount
    cases jLoop none u 0 .main ⟨0, []⟩ with
    | error e => simp
    | ok st => simp
  rw [key, key]
  simp only [jLoop_cString none t]

theorem jsmnParse_cString {t : Bytes} {cap : Nat} {x : Nat × List Tok} : jsmnParse t cap = .ok x ↔ jsmnParse (cString t) cap = .ok x := by
  have key : ∀ u : Bytes, jsmnParse u cap = .ok x ↔ ∃ st, jLoop (some cap) u 0 .main ⟨0, []⟩ = .ok st ∧ (st.count, st.toks.reverse) = x := by
    intro u
    unfold jsmnParse
    cases jLoop (some cap) u 0 .main ⟨0, []⟩ with
    | error e => simp
    | ok st => simp
  rw [key, key]
  simp only [jLoop_cString (some cap) t]

theorem lexes_zero {t : Bytes} (h : Lexes t 0) : ∀ c ∈ t, stopChar c = true := by
  generalize hn : 0 = n at h
  induction h with
  | nil => intro c hc; cases hc
  | gap hc _ ih =>
    intro x hx
    rcases List.mem_cons.mp hx with rfl | hx
    · exact hc
    · exact ih hn x hx
  | opening => cases hn
  | string => cases hn
  | word => cases hn

theorem lexes_stops {t : Bytes} (h : ∀ c ∈ t, stopChar c = true) : Lexes t 0 := by
  induction t with
  | nil => exact .nil
  | cons c t ih => exact .gap (h c (by simp)) (ih fun x hx => h x (by simp [hx]))

/-- Every text is parsed in some way. -/
theorem parsed_exist (num : Bytes → Nat) (t : Bytes) : ∃ ok ds n b, Parsed num t ok ds n b := by
  by_cases hs : ∀ c ∈ t, stopChar c = true
  · exact ⟨_, _, _, _, .empty hs⟩
  have : ∃ c, c ∈ t ∧ stopChar c = false := by
    simp only [Classical.not_forall] at hs
    obtain ⟨c, hc, hx⟩ := hs
    exact ⟨c, hc, by simpa using hx⟩
  obtain ⟨c, hct, hcs⟩ := this
  by_cases hi : ∃ l, Items t l
  · obtain ⟨l, hi⟩ := hi
    cases l with
    | nil =>
      exfalso
      have : ∀ {t l}, Items t l → l = [] → ∀ c ∈ t, stopChar c = true := by
        intro t l h
        induction h with
        | nil => intro _ c hc; cases hc
        | gap hc _ ih =>
          intro e x hx
          rcases List.mem_cons.mp hx with rfl | hx
          · simp [stopChar, hc]
          · exact ih e x hx
        | string => intro e; cases e
        | word => intro e; cases e
        | array => intro e; cases e
        | object => intro e; cases e
      rw [this hi rfl c hct] at hcs
      cases hcs
    | cons v l =>
      by_cases hv : v.text.head? = some 123
      · obtain ⟨g, a, k, t', e, hg, hvv, ha, ht⟩ := items_object hi hv
        obtain ⟨ok, ds, b, hp⟩ := pairs_exist num (k ++ l)
        exact ⟨_, _, _, _, .object hi (by rw [hvv]) ha hp⟩
      · exact ⟨_, _, _, _, .noObject hi hv⟩
  · exact ⟨_, _, _, _, .noItems hct hcs (not_exists.mp hi)⟩

/-- What follows the text does not continue its last word. -/
def Tail (json : Bytes) (len : Nat) : Prop := ∀ l, Items (json.take len) l → ∀ u w, json.take len = u ++ w → Word w →
  ∀ c, json[len]? = some c → letter c = false

/-- The text and what follows it. -/
theorem json_split {json : Bytes} {len : Nat} (hl : len < json.length) (hx : Tail json len) :
    ∃ q, (∀ l, Items (cString (json.take len)) l → Sharp (cString (json.take len)) q) ∧ json = cString (json.take len) ++ q := by
  have e : json = (json.take len).takeWhile (· != 0) ++ ((json.take len).dropWhile (· != 0) ++ json.drop len) := by
    rw [← List.append_assoc, List.takeWhile_append_dropWhile, List.take_append_drop]
  refine ⟨_, ?_, e⟩
  generalize hd : (json.take len).dropWhile (· != 0) = d
  cases d with
  | nil =>
    have ec : cString (json.take len) = json.take len := by
      have := List.takeWhile_append_dropWhile (p := (· != (0 : UInt8))) (l := json.take len)
      rw [hd, List.append_nil] at this
      exact this
    rw [ec]
    intro l hi u w e hw
    refine ⟨json[len], json.drop (len + 1), ?_, hx l hi u w e hw _ (List.getElem?_eq_getElem hl)⟩
    rw [List.nil_append, List.drop_eq_getElem_cons hl]
  | cons c d =>
    refine fun _ _ => Ends.sharp ⟨c, _, rfl, ?_⟩ _
    have := List.head?_dropWhile_not (p := (· != (0 : UInt8))) (l := json.take len)
    rw [hd] at this
    simp at this
    subst this
    rfl

/-- The outcome of parsing any text. -/
theorem parsePure_parsed {json : Bytes} {len : Nat} (hlen : len < json.length) (hx : Tail json len)
    {ok : Bool} {ds : List DClaim} {n : Nat} {b : Behind} (hp : Parsed env.checknum (cString (json.take len)) ok ds n b) :
    ∃ vend, ((0 : Int) ≤ vend ∧ vend ≤ json.length) ∧
      parsePure env json len = lookBehind env (slots n) n vend b (parseRc ok, ds) := by
  obtain ⟨q, hq, ej⟩ := json_split hlen hx
  generalize hc : cString (json.take len) = c at hp ej hq
  have h0 : 0 ∉ c := hc ▸ cString_zero _
  -- the two passes
  have passes : ∀ toks, RunsAt c 0 toks → jsmnCount (json.take len) = .ok toks.length ∧
      jsmnParse (json.take len) toks.length = .ok (toks.length, toks) := by
    intro toks hr
    obtain ⟨h1, h2⟩ := hr.loop h0
    rw [jsmnCount_cString, jsmnParse_cString, hc]
    exact ⟨h1, h2 _ (Nat.le_refl _)⟩
  cases hp with
  | noItems hct hcs hno =>
    refine ⟨0, ⟨by omega, by omega⟩, ?_⟩
    unfold parsePure
    generalize hc1 : jsmnCount (json.take len) = y
    match y, hc1 with
    | .error e, _ => rfl
    | .ok 0, hc1 =>
      have := jsmnCount_iff.mp hc1
      rw [hc] at this
      rw [lexes_zero this _ hct] at hcs
      cases hcs
    | .ok (m + 1), hc1 =>
      simp only
      cases hp : jsmnParse (json.take len) (m + 1) with
      | error e => rfl
      | ok x =>
        have := jsmnParse_items hp
        rw [hc] at this
        exact absurd this (not_exists.mpr hno)
  | empty hi =>
    refine ⟨0, ⟨by omega, by omega⟩, ?_⟩
    unfold parsePure
    rw [jsmnCount_iff.mpr (hc ▸ lexes_stops hi)]
    rfl
  | @noObject v l hi hv =>
    obtain ⟨toks, h1, h2, h3⟩ := items_toks hi [] q (hq _ hi)
    refine ⟨0, ⟨by omega, by omega⟩, ?_⟩
    obtain ⟨p1, p2⟩ := passes _ h2
    cases h3 with
    | @cons _ size p v q' nested ts _ e _ hi' _ _ _ _ =>
      unfold parsePure
      rw [p1]
      simp only [List.length_cons] at p2 ⊢
      simp only [p2]
      rw [if_pos]
      · rfl
      · simp only at hv
        unfold headTok
        rw [if_neg hv]
        split
        · simp
        · split <;> simp
  | @object v l a k ok ds b hi hv ha hpr =>
    obtain ⟨g, a', k', t', e, hg, hvv, -, ht⟩ := items_object hi (by rw [hv]; rfl)
    have : a' = a := by
      rw [hvv] at hv
      simp at hv
      exact hv
    subst this
    obtain ⟨x, x1, x2, x3⟩ := items_toks ha (g ++ [123]) (125 :: (t' ++ q)) (Ends.sharp ⟨125, _, rfl, rfl⟩ _)
    obtain ⟨y, y1, y2, y3⟩ := items_toks ht (g ++ 123 :: (a' ++ [125])) q
      (Sharp.suffix (x := g ++ 123 :: (a' ++ [125])) (by have := hq _ hi; rw [e] at this; simpa using this))
    have l1 : (g ++ [123]).length = 0 + g.length + 1 := by simp
    have l2 : (g ++ 123 :: (a' ++ [125])).length = 0 + g.length + (a'.length + 2) := by simp
    have j1 : g ++ [123] ++ (a' ++ 125 :: (t' ++ q)) = json := by rw [ej, e]; simp
    have j2 : g ++ 123 :: (a' ++ [125]) ++ (t' ++ q) = json := by rw [ej, e]; simp
    rw [l1] at x2 x3
    rw [l2] at y2 y3
    rw [j1] at x3
    rw [j2] at y3
    have hrun : RunsAt c 0 (⟨.object, (0 + g.length : Nat), (0 + g.length + (a'.length + 2) : Nat)⟩ :: (x ++ y)) := by
      rw [e]
      exact RunsAt.gaps hg (RunsAt.group true x2 y2)
    obtain ⟨p1, p2⟩ := passes _ hrun
    have hit := x3.append y3 (by omega) (fun z hz => by have := x2.ends z hz; omega)
    obtain ⟨vend, hvend, hloop⟩ := loop_items hpr hit
    refine ⟨vend, hvend, ?_⟩
    have hn : (x ++ y).length + 1 = 1 + total (k ++ l) := by
      rw [List.length_append, x1, y1]
      simp [total]
      omega
    unfold parsePure
    rw [p1]
    rw [List.length_cons] at p2 ⊢
    simp only [p2]
    rw [if_neg (by simp), hloop _ _ _ (by omega), hn]
    rfl

/-! ## There is only one way to read a text -/

theorem headTok_start {v q : Bytes} (hv : ItemText v q) (pos : Nat) :
    (headTok pos v).start = (if v.head? = some 34 then pos + 1 else pos : Nat) ∧
    (headTok pos v).end_ = (if v.head? = some 34 then pos + v.length - 1 else pos + v.length : Nat) := by
  by_cases h : v.head? = some 34
  · obtain ⟨b, -, rfl⟩ := item_string hv h
    simp [headTok]
    omega
  · rw [if_neg h, if_neg h]
    unfold headTok
    rw [if_neg h]
    split
    · exact ⟨rfl, rfl⟩
    · split <;> exact ⟨rfl, rfl⟩

theorem headTok_inj {json p v q p' v' q' : Bytes} (e : json = p ++ (v ++ q)) (e' : json = p' ++ (v' ++ q')) (hv : ItemText v q)
    (hv' : ItemText v' q') (h : headTok p.length v = headTok p'.length v') : p.length = p'.length ∧ v = v' := by
  have h1 := headTok_start hv p.length
  have h2 := headTok_start hv' p'.length
  have hs : v.head? = some 34 ↔ v'.head? = some 34 := by rw [← headTok_string v p.length, h, headTok_string]
  have n1 := List.length_pos_iff.mpr (item_ne hv)
  have n2 := List.length_pos_iff.mpr (item_ne hv')
  rw [h] at h1
  have key : p.length = p'.length ∧ v.length = v'.length := by
    by_cases hq : v.head? = some 34
    · rw [if_pos hq, if_pos hq] at h1
      rw [if_pos (hs.mp hq), if_pos (hs.mp hq)] at h2
      omega
    · rw [if_neg hq, if_neg hq] at h1
      rw [if_neg (fun hx => hq (hs.mpr hx)), if_neg (fun hx => hq (hs.mpr hx))] at h2
      omega
  refine ⟨key.1, ?_⟩
  obtain ⟨-, e2⟩ := List.append_inj (e.symm.trans e') key.1
  exact (List.append_inj e2 key.2).1

theorem ItemToks.unique {json : Bytes} {lo lo' : Nat} {l l' : List Item} {x : List Tok} (h : ItemToks json lo l x)
    (h' : ItemToks json lo' l' x) : l = l' := by
  generalize hx : x = x' at h'
  induction h generalizing lo' l' x' with
  | nil =>
    cases h' with
    | nil => rfl
    | cons => cases hx
  | @cons lo size p v q nested ts l e h1 hi h2 h3 h4 ht ih =>
    cases h' with
    | nil => cases hx
    | @cons _ size' p' v' q' nested' ts' l2 e' h1' hi' h2' h3' h4' ht' =>
      obtain ⟨hh, hn⟩ := List.cons.inj hx
      obtain ⟨hp, rfl⟩ := headTok_inj e e' hi hi' hh
      rw [← hp] at h3' ht'
      -- the nested tokens are those that end with the item
      have split : ∀ (nested ts nested' ts' : List Tok), nested ++ ts = nested' ++ ts' → 
          (∀ z ∈ nested, z.end_ ≤ (p.length + v.length : Nat)) → (∀ z ∈ ts'.head?, (p.length + v.length : Nat) < z.end_) →
          (∀ z ∈ nested', z.end_ ≤ (p.length + v.length : Nat)) → (∀ z ∈ ts.head?, (p.length + v.length : Nat) < z.end_) →
          nested = nested' ∧ ts = ts' := by
        intro nested
        induction nested with
        | nil =>
          intro ts nested' ts' he _ _ hn' hts
          cases nested' with
          | nil => exact ⟨rfl, he⟩
          | cons z n' =>
            have a := hn' z (by simp)
            have b := hts z (by rw [show ts = z :: (n' ++ ts') from he]; rfl)
            omega
        | cons y n ih =>
          intro ts nested' ts' he hn1 hts' hn' hts
          cases nested' with
          | nil =>
            have a := hn1 y (by simp)
            have b := hts' y (by rw [show ts' = y :: (n ++ ts) from he.symm]; rfl)
            omega
          | cons z n' =>
            obtain ⟨hyz, he2⟩ := List.cons.inj he
            subst hyz
            obtain ⟨rfl, rfl⟩ := ih ts n' ts' he2 (fun z hz => hn1 z (by simp [hz])) hts' (fun z hz => hn' z (by simp [hz])) hts
            exact ⟨rfl, rfl⟩
      have hd : ∀ {l ts}, ItemToks json (p.length + v.length) l ts → ∀ z ∈ ts.head?, ((p.length + v.length : Nat) : Int) < z.end_ := by
        intro l ts h z hz
        cases h with
        | nil => cases hz
        | @cons _ _ p2 v2 _ _ _ _ _ hlo2 hi2 _ _ _ _ =>
          cases hz
          have := headTok_end hi2 p2.length
          omega
      obtain ⟨rfl, rfl⟩ := split _ _ _ _ hn (fun z hz => (h3 z hz).2) (hd ht') (fun z hz => (h3' z hz).2) (hd ht)
      rw [ih _ rfl ht']
      congr 2
      omega

theorem at_unique {cap pos : Nat} {l l' : List Tok} {m : JMode} {st : JState} (h : At cap pos l m st) (h' : At cap pos l' m st) : l = l' := by
  have inj : ∀ {a b : List Tok}, S a = S b → a = b := by
    intro a b h
    simp only [S, JState.mk.injEq] at h
    exact h.2
  rcases h with ⟨hm, hs⟩ | ⟨a, k, hm, hs, e, -⟩ <;> rcases h' with ⟨hm', hs'⟩ | ⟨a', k', hm', hs', e', -⟩
  · exact inj (hs.symm.trans hs')
  · rw [hm] at hm'; cases hm'
  · rw [hm] at hm'; cases hm'
  · rw [hm] at hm'
    cases hm'
    rw [e, e', inj (hs.symm.trans hs')]

theorem items_unique {t : Bytes} {l l' : List Item} (h : Items t l) (h' : Items t l') : l = l' := by
  obtain ⟨x, x1, x2, x3⟩ := items_toks h [] [0] (Ends.sharp ⟨0, [], rfl, rfl⟩ _)
  obtain ⟨y, y1, y2, y3⟩ := items_toks h' [] [0] (Ends.sharp ⟨0, [], rfl, rfl⟩ _)
  have : x = y := by
    obtain ⟨m, st, e, ha⟩ := x2.run (x.length + y.length) [] .main (S []) (At.main _ _ _) (Or.inl rfl) (by simp)
    obtain ⟨m', st', e', ha'⟩ := y2.run (x.length + y.length) [] .main (S []) (At.main _ _ _) (Or.inl rfl) (by simp)
    rw [e] at e'
    cases e'
    have := at_unique ha ha'
    simpa using this
  subst this
  exact x3.unique y3

theorem itemClaim_unique {num : Bytes → Nat} {k v : Item} {d d' : DClaim} (h : ItemClaim num k v d) (h' : ItemClaim num k v d') : d = d' := by
  obtain ⟨kk, vv, tt⟩ := d
  obtain ⟨kk', vv', tt'⟩ := d'
  obtain ⟨a, b, c, e⟩ := h
  obtain ⟨a', b', c', e'⟩ := h'
  simp only at *
  rw [a] at a'
  cases a'
  rw [unescapes_unique b, unescapes_unique b']
  by_cases hs : v.text.head? = some 34
  · rw [unescapes_unique (c hs), unescapes_unique (c' hs)]
  · rw [e hs, e' hs]

theorem pairs_unique {num : Bytes → Nat} {l : List Item} {ok ok' : Bool} {ds ds' : List DClaim} {b b' : Behind} (h : Pairs num l ok ds b)
    (h' : Pairs num l ok' ds' b') : ok = ok' ∧ ds = ds' ∧ b = b' := by
  induction h generalizing ok' ds' b' with
  | nil => cases h'; exact ⟨rfl, rfl, rfl⟩
  | single h1 =>
    cases h' with
    | single => exact ⟨rfl, rfl, rfl⟩
    | nested h2 => exact absurd h1 h2
  | nested h1 =>
    cases h' with
    | single h2 => exact absurd h2 h1
    | nested => exact ⟨rfl, rfl, rfl⟩
  | key h1 =>
    cases h' with
    | key => exact ⟨rfl, rfl, rfl⟩
    | value h2 => exact absurd h2 h1
    | last h2 => exact absurd h2 h1
    | cons h2 => exact absurd h2 h1
  | value h1 h2 =>
    cases h' with
    | key h3 => exact absurd h1 h3
    | value => exact ⟨rfl, rfl, rfl⟩
    | last _ h3 => have := h3.type; rw [h2] at this; cases this
    | cons _ h3 => have := h3.type; rw [h2] at this; cases this
  | last h1 h2 h3 =>
    cases h' with
    | key h4 => exact absurd h1 h4
    | value _ h4 => have := h2.type; rw [h4] at this; cases this
    | last _ h4 => exact ⟨rfl, by rw [itemClaim_unique h2 h4], rfl⟩
    | cons _ _ h4 => rw [h4 rfl] at h3; cases h3
  | cons h1 h2 h3 _ ih =>
    cases h' with
    | key h4 => exact absurd h1 h4
    | value _ h4 => have := h2.type; rw [h4] at this; cases this
    | last _ _ h4 => rw [h3 rfl] at h4; cases h4
    | cons _ h4 _ h5 =>
      obtain ⟨e1, e2, e3⟩ := ih h5
      exact ⟨e1, by rw [itemClaim_unique h2 h4, e2], e3⟩

theorem items_head {t : Bytes} {v : Item} {l : List Item} (h : Items t (v :: l)) : ∃ c ∈ t, stopChar c = false := by
  generalize hl : v :: l = l' at h
  induction h with
  | nil => cases hl
  | gap _ _ ih => obtain ⟨c, hc, hs⟩ := ih hl; exact ⟨c, by simp [hc], hs⟩
  | string => exact ⟨34, by simp, by decide⟩
  | word hw =>
    obtain ⟨c, w, rfl, hc, -⟩ := hw
    refine ⟨c, by simp, ?_⟩
    have := (wordChar_facts hc).1
    rwa [primStop_eq] at this
  | array => exact ⟨91, by simp, by decide⟩
  | object => exact ⟨123, by simp, by decide⟩

/-- A text is parsed in one way only. -/
theorem parsed_unique {num : Bytes → Nat} {t : Bytes} {ok ok' : Bool} {ds ds' : List DClaim} {n n' : Nat} {b b' : Behind}
    (h : Parsed num t ok ds n b) (h' : Parsed num t ok' ds' n' b') : ok = ok' ∧ ds = ds' ∧ n = n' ∧ b = b' := by
  have no : ∀ {c}, c ∈ t → stopChar c = false → (∀ c ∈ t, stopChar c = true) → False := by
    intro c h1 h2 h3
    rw [h3 c h1] at h2
    cases h2
  cases h with
  | empty he =>
    cases h' with
    | empty => exact ⟨rfl, rfl, rfl, rfl⟩
    | noItems h1 h2 => exact (no h1 h2 he).elim
    | noObject h1 => obtain ⟨c, h2, h3⟩ := items_head h1; exact (no h2 h3 he).elim
    | object h1 => obtain ⟨c, h2, h3⟩ := items_head h1; exact (no h2 h3 he).elim
  | noItems h1 h2 hno =>
    cases h' with
    | empty he => exact (no h1 h2 he).elim
    | noItems => exact ⟨rfl, rfl, rfl, rfl⟩
    | noObject h => exact absurd h (hno _)
    | object h => exact absurd h (hno _)
  | noObject hi hv =>
    cases h' with
    | empty he => obtain ⟨c, h2, h3⟩ := items_head hi; exact (no h2 h3 he).elim
    | noItems _ _ hno => exact absurd hi (hno _)
    | noObject hi' => rw [items_unique hi hi']; exact ⟨rfl, rfl, rfl, rfl⟩
    | object hi' he =>
      cases items_unique hi hi'
      exact absurd (by rw [he]; rfl) hv
  | object hi he ha hp =>
    cases h' with
    | empty he => obtain ⟨c, h2, h3⟩ := items_head hi; exact (no h2 h3 he).elim
    | noItems _ _ hno => exact absurd hi (hno _)
    | noObject hi' hv =>
      cases items_unique hi hi'
      exact absurd (by rw [he]; rfl) hv
    | object hi' he' ha' hp' =>
      cases items_unique hi hi'
      rw [he] at he'
      simp only [List.cons.injEq, true_and] at he'
      have := List.append_cancel_right he'
      subst this
      cases items_unique ha ha'
      obtain ⟨e1, e2, e3⟩ := pairs_unique hp hp'
      exact ⟨e1, e2, rfl, e3⟩

end L8w8jwt
