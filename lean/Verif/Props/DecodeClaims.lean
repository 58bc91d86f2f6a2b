import Verif.Props.Validate
import Verif.Proofs.JsmnClaims
import Verif.Proofs.JsmnTok
import Verif.Spec.Loose
/-!
# Properties C42, C44-C46: from JSON to claims
-/

namespace L8w8jwt
open Spec

variable {s : Sched} {h h' : Heap} {env : Env} {p : DecParams} {tok : Bytes} {num : Bytes → Nat}

/-! ## What the members say -/

theorem jmembers_mem {t : Bytes} {l : List (Bytes × Bytes)} (h : JMembers t l) : ∀ m ∈ l, JStr m.1 ∧ JText .value m.2 := by
  induction h with
  | mem _ hk _ _ hv _ =>
    intro m hm
    rw [List.mem_singleton.mp hm]
    exact ⟨hk, hv⟩
  | mems _ hk _ _ hv _ _ ih =>
    intro m hm
    rcases List.mem_cons.mp hm with rfl | hm
    · exact ⟨hk, hv⟩
    · exact ih m hm

theorem jobject_mem {t : Bytes} {l : List (Bytes × Bytes)} (h : JObject t l) : ∀ m ∈ l, JStr m.1 ∧ JText .value m.2 := by
  cases h with
  | empty => intro m hm; cases hm
  | full _ hm _ => exact jmembers_mem hm

theorem jsonString_unescape {k : Bytes} (h : JStr k) (hn : noUni k = true) : jsonString k = some (unescapeString k) := by
  obtain ⟨v, hv⟩ := h
  rw [unescape_lex hv hn, jsonString, hv]

theorem rawClaim_says {m : Bytes × Bytes} {ty : Int} (hk : JStr m.1) (hv : JText .value m.2) (ht : valueType num m.2 = some ty) :
    Says num m (rawClaim m ty) where
  type := ht
  rawKey := unescapes _
  key hn := jsonString_unescape hk hn
  rawString hs := by
    have : ty = L8W8JWT_CLAIM_TYPE_STRING := (valueType_string ht).mpr hs
    obtain ⟨k, hk, e⟩ := jtext_string hv hs
    simp only [rawClaim, this, if_true]
    rw [e, unquote_eq]
    exact unescapes _
  string hs hn := by
    obtain ⟨k, hk, e⟩ := jtext_string hv hs
    have : ty = L8W8JWT_CLAIM_TYPE_STRING := (valueType_string ht).mpr hs
    simp only [rawClaim, this, if_true]
    rw [e, unquote_eq] at hn ⊢
    exact jsonString_unescape hk hn
  other hs := by
    have : ty ≠ L8W8JWT_CLAIM_TYPE_STRING := fun h => hs ((valueType_string ht).mp h)
    simp only [rawClaim, this, if_false]

theorem membersResult_says {l : List (Bytes × Bytes)} {ds : List DClaim} (hl : ∀ m ∈ l, JStr m.1 ∧ JText .value m.2)
    (h : membersResult env l = (L8W8JWT_SUCCESS, ds)) : SayAll env.checknum l ds := by
  induction l generalizing ds with
  | nil => cases h; exact .nil
  | cons m l ih =>
    unfold membersResult at h
    cases ht : valueType env.checknum m.2 with
    | none => simp only [ht] at h; exact absurd (show L8W8JWT_DECODE_FAILED_INVALID_TOKEN_FORMAT = L8W8JWT_SUCCESS from congrArg Prod.fst h) (by decide)
    | some ty =>
      simp only [ht, Prod.mk.injEq] at h
      obtain ⟨h1, h2⟩ := h
      rw [← h2]
      exact .cons (rawClaim_says (hl m (by simp)).1 (hl m (by simp)).2 ht)
        (ih (fun x hx => hl x (by simp [hx])) (by rw [← h1]))

theorem sayAll_length {l : List (Bytes × Bytes)} {ds : List DClaim} (h : SayAll num l ds) : ds.length = l.length := by
  induction h with
  | nil => rfl
  | cons _ _ ih => simp [ih]

theorem sayAll_append {l l' : List (Bytes × Bytes)} {ds ds' : List DClaim} (h : SayAll num l ds) (h' : SayAll num l' ds') :
    SayAll num (l ++ l') (ds ++ ds') := by
  induction h with
  | nil => exact h'
  | cons a _ ih => exact .cons a ih

theorem says_eq {m : Bytes × Bytes} {d : DClaim} (h : Says num m d) (hp : plainPair m = true) : d = jsonClaim num m := by
  obtain ⟨h1, -, h2, -, h3, h4⟩ := h
  simp only [plainPair, Bool.and_eq_true, Bool.or_eq_true, bne_iff_ne, ne_eq] at hp
  obtain ⟨k, v, t⟩ := d
  simp only [jsonClaim, DClaim.mk.injEq]
  refine ⟨by simp [h2 hp.1], ?_, by simp [h1]⟩
  by_cases hs : m.2.head? = some 34
  · have hn := hp.2.resolve_left (fun hx => hx hs)
    rw [if_pos hs, h3 hs hn]
    rfl
  · rw [if_neg hs]; exact h4 hs

theorem sayAll_eq {l : List (Bytes × Bytes)} {ds : List DClaim} (h : SayAll num l ds) (hp : l.all plainPair = true) :
    ds = l.map (jsonClaim num) := by
  induction h with
  | nil => rfl
  | cons a _ ih =>
    simp only [List.all_cons, Bool.and_eq_true] at hp
    rw [List.map_cons, ← says_eq a hp.1, ← ih hp.2]

theorem sayAll_typed {l : List (Bytes × Bytes)} {ds : List DClaim} (h : SayAll num l ds) :
    l.all (fun m => (valueType num m.2).isSome) = true := by
  induction h with
  | nil => rfl
  | cons a _ ih => simp [ih, a.type]

theorem membersResult_typed {l : List (Bytes × Bytes)} (h : l.all (fun m => (valueType env.checknum m.2).isSome) = true) :
    ∃ ds, membersResult env l = (L8W8JWT_SUCCESS, ds) := by
  induction l with
  | nil => exact ⟨_, rfl⟩
  | cons m l ih =>
    simp only [List.all_cons, Bool.and_eq_true] at h
    obtain ⟨ty, ht⟩ := Option.isSome_iff_exists.mp h.1
    obtain ⟨ds, hd⟩ := ih h.2
    exact ⟨_, by unfold membersResult; simp only [ht, hd]; rfl⟩

theorem membersResult_untyped {l : List (Bytes × Bytes)} (h : l.all (fun m => (valueType env.checknum m.2).isSome) = false) :
    (membersResult env l).1 = L8W8JWT_DECODE_FAILED_INVALID_TOKEN_FORMAT := by
  induction l with
  | nil => cases h
  | cons m l ih =>
    unfold membersResult
    cases ht : valueType env.checknum m.2 with
    | none => rfl
    | some ty =>
      simp only [List.all_cons, ht, Option.isSome_some, Bool.true_and] at h
      exact ih h

/-! ## The segments -/

theorem jobject_ne {t : Bytes} {l : List (Bytes × Bytes)} (h : JObject t l) : t ≠ [] := by
  cases h <;> simp

/-- The claims in a segment that is a JSON object, whenever parsing is defined. -/
theorem claimsIn_object {a : Bytes} {l : List (Bytes × Bytes)} (hj : JObject (jsonOf a) l) {x : Nat × List DClaim}
    (h : claimsIn env a = .ok x) : x = membersResult env l := by
  obtain ⟨pad, -, he⟩ := claimsIn_eq (env := env) (jobject_ne hj)
  obtain ⟨n, vend, -, -, -, -, hp⟩ := object_parse (env := env) hj pad
  rw [he, hp] at h
  split at h
  · generalize skipNested env (slots (n + 1)) (n + 1) vend [] = y at h
    cases y with
    | error e => cases h
    | ok y => cases h; rfl
  · cases h; rfl

theorem jsize_count {k : JKind} {t : Bytes} {n : Nat} (h : JSize k t n) : jsmnCount t = .ok n := by
  obtain ⟨toks, rfl, hr, -⟩ := jsize_runs h 0
  exact (runs_loop hr).1

theorem jsize_unique {k : JKind} {t : Bytes} {n m : Nat} (h : JSize k t n) (h' : JSize k t m) : n = m := by
  have := (jsize_count h).symm.trans (jsize_count h')
  cases this
  rfl

theorem pairsSize_unique {l : List (Bytes × Bytes)} {n m : Nat} (h : PairsSize l n) (h' : PairsSize l m) : n = m := by
  induction h generalizing m with
  | nil => cases h'; rfl
  | cons a _ ih =>
    cases h' with
    | cons a' t' => rw [jsize_unique a a', ih t']

/-! ## C44 -/

/-- The environment with other contents of the uninitialised token slots. -/
def Env.slack (env : Env) (g : Nat → Tok) : Env := { env with garbage := g }

theorem lift_bind {α β : Type} (a : α) (f : α → M β) : (M.lift (.ok a) >>= f) = f a := by funext s h; rfl

theorem skipNested_slack {cap r : Nat} (hr : r + 1 < cap) (g : Nat → Tok) (e : Int) (l : List Tok) :
    skipNested (env.slack g) cap r e l = skipNested env cap r e l := by
  induction l with
  | nil =>
    simp only [skipNested, slackSlot, if_pos hr, if_pos (show r < cap by omega), bind, Except.bind]
    split <;> split <;> rfl
  | cons t ts ih => simp only [skipNested, ih]

theorem claimType_slack {json : Bytes} {cap r : Nat} (hr : r + 1 < cap) (g : Nat → Tok) (v : Tok) (rest : List Tok) :
    claimType (env.slack g) json cap r v rest = claimType env json cap r v rest := by
  unfold claimType
  rw [skipNested_slack hr]
  rfl

theorem claimsLoop_slack {json : Bytes} {cap r : Nat} (hr : r + 1 < cap) (g : Nat → Tok) (fuel : Nat) (toks : List Tok) (buf : List Claim) :
    claimsLoop (env.slack g) json cap r fuel toks buf = claimsLoop env json cap r fuel toks buf := by
  induction fuel generalizing toks buf with
  | zero => rfl
  | succ fuel ih =>
    match toks with
    | [] => rfl
    | [t] => simp only [claimsLoop, slackSlot, if_pos (show r < cap by omega)]; rfl
    | key :: value :: rest => simp only [claimsLoop, claimType_slack hr, ih]

/-- Texts with at most 62 tokens. -/
theorem parseClaims_few {id len : Nat} {json : Bytes} (h1 : len + 13 ≤ json.length) (hlen : len < 2 ^ 64)
    (hf : FewTokens (json.take len)) (buf : List Claim) :
    (∃ x, parseClaims env buf (some ⟨id, json⟩) len s h = .ok x) ∧
    ∀ g, parseClaims (env.slack g) buf (some ⟨id, json⟩) len = parseClaims env buf (some ⟨id, json⟩) len := by
  constructor
  · have := wp_parseClaims (s := s) (h := h) (env := env) (id := id) h1 hlen buf (fun _ => False) (Or.inl (parsePure_few h1 hf))
    obtain ⟨x, h', hx, -⟩ := wp_iff_exists.mp this
    exact ⟨_, hx⟩
  · intro g
    have key : ∀ n ptr, jsmnCount (json.take len) = .ok (n + 1) → parseWithTokens (env.slack g) buf json (json.take len) (n + 1) ptr =
        parseWithTokens env buf json (json.take len) (n + 1) ptr := by
      intro n ptr hc
      have hn := hf _ hc
      unfold parseWithTokens
      generalize hp : jsmnParse (json.take len) (n + 1) = y
      cases y with
      | error e => rfl
      | ok y =>
        obtain ⟨r, toks⟩ := y
        have hr := jsmn_counts hc hp
        cases toks with
        | nil => rfl
        | cons t0 ts =>
          simp only
          rw [if_pos (show n + 1 ≤ 64 by omega), claimsLoop_slack (by omega)]
    unfold parseClaims
    simp only [Ptr.bytes, Option.map_some, deref, lift_bind, rdN, if_pos (show len ≤ json.length by omega)]
    generalize hc : jsmnCount (json.take len) = c at key
    match c, key with
    | .error e, _ => rfl
    | .ok 0, _ => rfl
    | .ok (n + 1), key => simp only [key n _ rfl]

/-- An object with `n + 1` members of which the last is an array with one element: `2 n + 4` tokens. -/
def fullJson (n : Nat) : Bytes := 123 :: ((List.replicate n (str "\"a\":1,")).flatten ++ str "\"b\":[1]}")

/-- Return code and number of claims when decoding a toy token (with a wrong signature) with this header; `none`: undefined
behaviour. `g` is the content of the uninitialised slots. -/
def headerRun (hdr : Bytes) (g : Int) : Option (Nat × Option Nat) :=
  match decode (toy.slack fun _ => ⟨.undefined, 0, g⟩) (some (toyDec (mkTokB hdr (str "{}") (List.replicate 32 65)))) false false false
    calm heap0 with
  | .ok (r, _) => some (r.rc, r.claimsLength)
  | .error _ => none

/-- C44 is false for whole tokens, signed or not. -/
theorem C44_witness_false : headerRun (fullJson 30) 0 = none ∧ headerRun (fullJson 30) 1000 = none := by decide +kernel

example : headerRun (fullJson 29) 0 = some (0, some 30) ∧ headerRun (fullJson 29) 1000 = some (0, some 30) := by decide +kernel

example : headerRun (123 :: ((List.replicate 40 (str "\"a\":1,")).flatten ++ str "\"b\":1}")) 0 = some (0, some 41) := by decide +kernel

/-! ## C45 -/

theorem quoted {c : Bytes} {i j : Nat} (hi : 1 ≤ i) (hij : i ≤ j) (h1 : c[i - 1]? = some 34) (h2 : c[j]? = some 34) :
    c = c.take (i - 1) ++ 34 :: ((c.drop i).take (j - i) ++ 34 :: c.drop (j + 1)) := by
  obtain ⟨l1, e1⟩ := List.getElem?_eq_some_iff.mp h1
  obtain ⟨l2, e2⟩ := List.getElem?_eq_some_iff.mp h2
  have a1 : c.drop (i - 1) = 34 :: c.drop i := by
    rw [List.drop_eq_getElem_cons l1, e1, Nat.sub_add_cancel hi]
  have a2 : c.drop j = 34 :: c.drop (j + 1) := by rw [List.drop_eq_getElem_cons l2, e2]
  have a3 : (c.drop i).drop (j - i) = c.drop j := by rw [List.drop_drop]; congr 1; omega
  calc c = c.take (i - 1) ++ c.drop (i - 1) := (List.take_append_drop _ _).symm
    _ = _ := by rw [a1, ← a2, ← a3, List.take_append_drop]

theorem slice_pre {c x : Bytes} {t : Tok} (h : TokIn c.length t) :
    slice (c ++ x) t = (c.drop t.start.toNat).take (t.end_.toNat - t.start.toNat) := by
  obtain ⟨h1, h2, h3, -⟩ := h
  unfold slice at_
  rw [List.drop_append_of_le_length (by omega), List.take_append_of_le_length (by rw [List.length_drop]; omega)]
  congr 1
  omega

theorem claimType_str {json : Bytes} {cap r : Nat} {v : Tok} {rest rest' : List Tok}
    (h : claimType env json cap r v rest = .ok (some L8W8JWT_CLAIM_TYPE_STRING, rest')) : v.type = .string := by
  unfold claimType at h
  split at h
  · injection h with h; injection h with h; injection h with h; exact absurd h (by decide)
  · assumption
  · simp only [bind, Except.bind] at h
    split at h
    · cases h
    · injection h with h; injection h with h; injection h with h; exact absurd h (by decide)
  · simp only [bind, Except.bind] at h
    split at h
    · cases h
    · injection h with h; injection h with h; injection h with h; exact absurd h (by decide)
  · exfalso
    simp only [bind, Except.bind] at h
    split at h
    · cases h
    · rename_i o ho
      injection h with h; injection h with h
      subst h
      unfold primType at ho
      have no : ∀ {x y : Int}, x ≠ y → (Except.ok (some x) : Res (Option Int)) = .ok (some y) → False := by
        intro x y hxy hx
        injection hx with hx; injection hx with hx; exact hxy hx
      simp only [bind, Except.bind] at ho
      split at ho
      · cases ho
      split at ho
      · exact no (by decide) ho
      split at ho
      · cases ho
      split at ho
      · exact no (by decide) ho
      split at ho
      · cases ho
      split at ho
      · exact no (by decide) ho
      split at ho
      · exact no (by decide) ho
      · cases ho
  · cases h

theorem loopPure_found {c x : Bytes} (cap r fuel : Nat) (toks : List Tok) (hs : ∀ t ∈ toks, Shape c t) (ht : ∀ t ∈ toks, TokIn c.length t)
    (hj : JsonMem (c ++ x) c.length) {rc : Nat} {ds : List DClaim} (h : loopPure env (c ++ x) cap r fuel toks = .ok (rc, ds)) :
    ∀ d ∈ ds, FoundIn c d := by
  induction fuel generalizing toks rc ds with
  | zero => cases h; intro d hd; cases hd
  | succ fuel ih =>
    match toks, hs, ht with
    | [], _, _ => cases h; intro d hd; cases hd
    | [t], _, _ =>
      simp only [loopPure, bind, Except.bind] at h
      split at h
      · cases h
      · cases h; intro d hd; cases hd
    | key :: value :: rest, hs, ht =>
      simp only [loopPure] at h
      by_cases hk : key.type ≠ .string
      · rw [if_pos hk] at h; cases h; intro d hd; cases hd
      · rw [if_neg hk] at h
        have hk : key.type = .string := by simpa using hk
        rcases claimType_ok env hj cap r (ht value (by simp)) rest with ⟨o, rest', he, hsuf⟩ | ⟨-, he⟩
        · rw [he] at h
          cases o with
          | none => cases h; intro d hd; cases hd
          | some type =>
            simp only [bind, Except.bind] at h
            generalize hl : loopPure env (c ++ x) cap r fuel rest' = y at h
            cases y with
            | error e => cases h
            | ok y =>
              obtain ⟨rc', ds'⟩ := y
              cases h
              intro d hd
              rcases List.mem_cons.mp hd with rfl | hd
              · have k1 := hs key (by simp)
                unfold Shape at k1
                simp only [hk] at k1
                obtain ⟨-, q1, q2, q3, q4⟩ := k1
                refine ⟨⟨_, _, _, quoted (by omega) (by omega) q3 q4, ?_⟩, ?_⟩
                · simp only [mkClaim, slice_pre (ht key (by simp))]
                  exact unescapes _
                · simp only [mkClaim, slice_pre (ht value (by simp))]
                  by_cases hty : type = L8W8JWT_CLAIM_TYPE_STRING
                  · subst hty
                    have v1 := hs value (by simp)
                    unfold Shape at v1
                    simp only [claimType_str he] at v1
                    obtain ⟨-, w1, w2, w3, w4⟩ := v1
                    exact Or.inl ⟨rfl, _, _, _, quoted (by omega) (by omega) w3 w4, by rw [if_pos rfl]; exact unescapes _⟩
                  · refine Or.inr ⟨hty, c.take value.start.toNat, (c.drop value.start.toNat).drop (value.end_.toNat - value.start.toNat), ?_⟩
                    rw [if_neg hty, List.take_append_drop, List.take_append_drop]
              · exact ih rest' (fun t hx => hs t (by simp [hsuf.subset hx])) (fun t hx => ht t (by simp [hsuf.subset hx])) hl d hd
        · rw [he] at h; cases h

/-- Whatever the text, claims are only found in texts that start with `{` (after white space, commas and colons), and
their keys and values are parts of the text. -/
theorem claimsIn_found {a : Bytes} {rc : Nat} {ds : List DClaim} (h : claimsIn env a = .ok (rc, ds)) (hne : jsonOf a ≠ []) :
    (∀ d ∈ ds, FoundIn (cString (jsonOf a)) d) ∧
    (ds ≠ [] → ∃ w t, jsonOf a = w ++ 123 :: t ∧ ∀ x ∈ w, x = 32 ∨ x = 9 ∨ x = 10 ∨ x = 13 ∨ x = 44 ∨ x = 58) := by
  obtain ⟨pad, hpad, he⟩ := claimsIn_eq (env := env) hne
  rw [he] at h
  have hj := jsonMem_of (json := jsonOf a ++ pad) (len := (jsonOf a).length) (by simp; omega)
  rw [List.take_left] at hj
  unfold parsePure at h
  rw [List.take_left] at h
  have hsplit : ∃ x, jsonOf a = cString (jsonOf a) ++ x := ⟨_, (List.takeWhile_append_dropWhile (p := (· != (0 : UInt8)))).symm⟩
  obtain ⟨x, hx⟩ := hsplit
  have fin : ds = [] → _ := fun e => (show (∀ d ∈ ds, FoundIn (cString (jsonOf a)) d) ∧
    (ds ≠ [] → ∃ w t, jsonOf a = w ++ 123 :: t ∧ ∀ x ∈ w, x = 32 ∨ x = 9 ∨ x = 10 ∨ x = 13 ∨ x = 44 ∨ x = 58) from
    ⟨fun d hd => (by rw [e] at hd; cases hd), fun hn => absurd e hn⟩)
  generalize hc : jsmnCount (jsonOf a) = c at h
  match c, hc, h with
  | .error e, _, h => exact fin (by cases h; rfl)
  | .ok 0, _, h => exact fin (by cases h; rfl)
  | .ok (n + 1), hc, h =>
    simp only at h
    generalize hp : jsmnParse (jsonOf a) (n + 1) = y at h
    match y, hp, h with
    | .error e, _, h => exact fin (by cases h; rfl)
    | .ok (r, []), _, h => cases h
    | .ok (r, t0 :: ts), hp, h =>
      simp only at h
      obtain ⟨-, hin⟩ := jsmnParse_inv hp
      obtain ⟨hsh, hfirst⟩ := jsmnParse_shape hp
      by_cases h0 : t0.type ≠ .object
      · rw [if_pos h0] at h; exact fin (by cases h; rfl)
      · rw [if_neg h0] at h
        have h0 : t0.type = .object := by simpa using h0
        constructor
        · have e2 : jsonOf a ++ pad = cString (jsonOf a) ++ (x ++ pad) := by rw [← List.append_assoc, ← hx]
          rw [e2] at h hj
          exact loopPure_found _ _ _ _ (fun t ht => hsh t (by simp [ht])) (fun t ht => hin t (by simp [ht])) hj h
        · intro _
          have hf := hfirst t0 rfl
          have s0 := hsh t0 (by simp)
          unfold Shape at s0
          simp only [h0] at s0
          obtain ⟨s1, s2, -⟩ := s0
          simp only [Tok.at, h0] at hf
          rw [if_neg (by decide)] at hf
          have hf : t0.start.toNat = ((cString (jsonOf a)).takeWhile skipped).length := by omega
          rw [hf] at s2
          obtain ⟨l1, l2⟩ := List.getElem?_eq_some_iff.mp s2
          refine ⟨(cString (jsonOf a)).takeWhile skipped, (cString (jsonOf a)).drop (((cString (jsonOf a)).takeWhile skipped).length + 1) ++ x, ?_, ?_⟩
          · have e3 := List.take_append_drop ((cString (jsonOf a)).takeWhile skipped).length (cString (jsonOf a))
            rw [List.drop_eq_getElem_cons l1, l2] at e3
            have e4 : (cString (jsonOf a)).take ((cString (jsonOf a)).takeWhile skipped).length = (cString (jsonOf a)).takeWhile skipped := by
              have := List.takeWhile_append_dropWhile (p := skipped) (l := cString (jsonOf a))
              conv => lhs; rhs; rw [← this]
              rw [List.take_left]
            rw [e4] at e3
            calc jsonOf a = cString (jsonOf a) ++ x := hx
              _ = _ := by rw [← List.cons_append, ← List.append_assoc, e3]
          · intro y hy
            have := List.all_takeWhile (p := skipped) (l := cString (jsonOf a))
            rw [List.all_eq_true] at this
            have := this y hy
            simp only [skipped, Bool.or_eq_true, beq_iff_eq] at this
            rcases this with ((((h | h) | h) | h) | h) | h <;> simp [h]

/-- A JSON object is accepted exactly if all its values are of a known type, whenever parsing is defined. -/
theorem claimsIn_members {a : Bytes} {l : List (Bytes × Bytes)} (hj : JObject (jsonOf a) l) {rc : Nat} {ds : List DClaim}
    (h : claimsIn env a = .ok (rc, ds)) :
    (rc = L8W8JWT_SUCCESS ∧ SayAll env.checknum l ds) ∨
    (rc = L8W8JWT_DECODE_FAILED_INVALID_TOKEN_FORMAT ∧ ∃ m ∈ l, valueType env.checknum m.2 = none) := by
  have hm := claimsIn_object hj h
  cases ht : l.all (fun m => (valueType env.checknum m.2).isSome) with
  | true =>
    obtain ⟨ds', hd⟩ := membersResult_typed ht
    rw [hd] at hm
    cases hm
    exact Or.inl ⟨rfl, membersResult_says (jobject_mem hj) hd⟩
  | false =>
    have h1 := membersResult_untyped (env := env) ht
    rw [← hm] at h1
    refine Or.inr ⟨h1, ?_⟩
    have : ¬ ∀ m ∈ l, (valueType env.checknum m.2).isSome = true := by
      intro hall
      rw [List.all_eq_true.mpr hall] at ht
      cases ht
    simp only [Classical.not_forall] at this
    obtain ⟨m, hm, hx⟩ := this
    exact ⟨m, hm, by simpa using hx⟩

/-- The claims found by decoding a toy token with this header. -/
def headerClaims (hdr : String) : Option (Nat × List DClaim) :=
  match decode toy (some (toyDec (mkTokB (str hdr) (str "{}") (List.replicate 32 65)))) false false false calm heap0 with
  | .ok (r, _) => some (r.rc, match r.claims with
    | none => []
    | some a => a.items.map fun c => ⟨(c.key.bytes.getD []).take c.keyLength, (c.value.bytes.getD []).take c.valueLength, c.type⟩)
  | .error _ => none

/-- C45 is false: claims after the object are accepted, and so are texts that are not JSON. -/
theorem C45_false : headerClaims "{}\"a\":1" = some (0, [⟨str "a", str "1", 1⟩]) ∧ headerClaims "}" = some (0, []) ∧
    headerClaims "  " = some (0, []) ∧ headerClaims ",{\"a\" 1 \"b\":2" = some (L8W8JWT_DECODE_FAILED_INVALID_TOKEN_FORMAT, []) ∧
    headerClaims ",{\"a\" 1 \"b\":2}" = some (0, [⟨str "a", str "1", 1⟩, ⟨str "b", str "2", 1⟩]) := by decide +kernel

example : headerClaims "[1,2]" = some (L8W8JWT_DECODE_FAILED_INVALID_TOKEN_FORMAT, []) ∧
    headerClaims "{\"a\":[1,{\"iss\":2}],\"b\":{\"c\":\"x\"},\"d\":\"q\\\"r\"}" =
      some (0, [⟨str "a", str "[1,{\"iss\":2}]", 5⟩, ⟨str "b", str "{\"c\":\"x\"}", 6⟩, ⟨str "d", str "q\"r", 0⟩]) := by decide +kernel

/-! ## C46 -/

/-- C46 is false: `trueX` is no JSON value, but becomes a boolean; and so is `falseY` rejected. -/
theorem C46_false : headerClaims "{\"a\":trueX}" = some (0, [⟨str "a", str "trueX", L8W8JWT_CLAIM_TYPE_BOOLEAN⟩]) ∧
    headerClaims "{\"a\":falseX}" = some (L8W8JWT_DECODE_FAILED_INVALID_TOKEN_FORMAT, []) := by decide +kernel

example : headerClaims "{\"a\":true,\"b\":false,\"c\":null,\"d\":12,\"e\":-1.5e3,\"f\":\"\",\"g\":[],\"h\":{}}" =
    some (0, [⟨str "a", str "true", 3⟩, ⟨str "b", str "false", 3⟩, ⟨str "c", str "null", 4⟩, ⟨str "d", str "12", 1⟩,
      ⟨str "e", str "-1.5e3", 2⟩, ⟨str "f", [], 0⟩, ⟨str "g", str "[]", 5⟩, ⟨str "h", str "{}", 6⟩]) := by decide +kernel

/-! ## C42 -/

/-- The claims that a successful run hands out, and the flags it sets. -/
theorem decode_claims {a b : Bytes} {r : DecOut} (hc : CryptoOk env.crypto) (ht : TokenMem p tok) (hp : Parts tok a b)
    {c : Bool} (he : decode env (some p) false false c s h = .ok (r, h')) (hr : r.rc = L8W8JWT_SUCCESS) :
    ∃ arr ds1 ds2 fs1 fs2 sig v, r.claims = some arr ∧ r.claimsLength = some arr.items.length ∧ r.validation = some v ∧
      Views arr.items (ds1 ++ ds2) ∧ claimsIn env a = .ok (L8W8JWT_SUCCESS, fs1) ∧ claimsIn env b = .ok (L8W8JWT_SUCCESS, fs2) ∧
      ds1.Sublist fs1 ∧ ds2.Sublist fs2 ∧ (s.noGrowFail ∨ fs1.length + fs2.length ≤ 16 → ds1 = fs1 ∧ ds2 = fs2) ∧
      (sig = 0 ∨ sig = L8W8JWT_SIGNATURE_VERIFICATION_FAILURE) ∧ validateClaims env p arr.items sig = .ok v := by
  rcases decode_returns he with ⟨-, hx, -⟩ | ⟨q, st, h1, hq, -, -, hv, hb, ho⟩
  · exact absurd hr hx
  · cases hq
    have out := outcome_of hc hv ht hb
    have hst : st.rc = L8W8JWT_SUCCESS := by
      rw [ho] at hr
      unfold decOut at hr
      split at hr <;> exact hr
    rw [ho]
    have hd : decOut false st = { rc := st.rc, validation := some st.validation, claims := some st.claims, claimsLength := some st.claims.items.length } := by
      unfold decOut
      rw [if_neg (by simp [hst])]
    rw [hd]
    cases out with
    | oom => exact absurd hst (by decide)
    | segs _ hn => exact absurd hst hn
    | verify _ _ hs =>
      rcases hs with ⟨_, hx⟩ | ⟨_, _, _, _, _, _, _, hp⟩
      · cases hx
      · exact absurd hst (verFails_codes hp).1
    | claims => exact absurd (show L8W8JWT_DECODE_FAILED_INVALID_TOKEN_FORMAT = L8W8JWT_SUCCESS from hst) (by decide)
    | @done sg blk cs a' b' vr v ds1 ds2 _ _ _ hp' hvw hcl hval hfs =>
      obtain ⟨rfl, rfl⟩ := parts_unique hp hp'
      obtain ⟨fs1, fs2, c1, c2, s1, s2⟩ := hfs
      refine ⟨_, ds1, ds2, fs1, fs2, _, v, rfl, rfl, rfl, hvw, c1, c2, s1, s2, fun g => ?_, ?_, hval⟩
      · obtain ⟨d1, d2⟩ := hcl (g.imp (fun x => x) (fun g x y hxy => by
          obtain ⟨rfl, rfl⟩ := parts_unique hp hxy
          exact ⟨_, _, c1, c2, g⟩))
        rw [c1] at d1
        rw [c2] at d2
        cases d1; cases d2
        exact ⟨rfl, rfl⟩
      cases vr
      · exact Or.inr rfl
      · exact Or.inl rfl

/-- C42, C46: if header and payload are JSON objects, then the claims handed out are exactly their members (none of nested
ones), in order; arrays and objects are given by their source text; types are as documented. Strings are decoded, provided they
have no `\uXXXX` escape sequence. Validation is about these claims only. -/
theorem C42_top_level {a b : Bytes} {l1 l2 : List (Bytes × Bytes)} {r : DecOut} (hc : CryptoOk env.crypto) (ht : TokenMem p tok)
    (hg : s.noGrowFail ∨ l1.length + l2.length ≤ 16) (hp : Parts tok a b) (h1 : JObject (jsonOf a) l1) (h2 : JObject (jsonOf b) l2) {c : Bool}
    (he : decode env (some p) false false c s h = .ok (r, h')) (hr : r.rc = L8W8JWT_SUCCESS) :
    ∃ arr ds v, r.claims = some arr ∧ r.claimsLength = some (l1 ++ l2).length ∧ r.validation = some v ∧
      Views arr.items ds ∧ SayAll env.checknum (l1 ++ l2) ds ∧
      (ExpectOk p → NowOk env.now → TypDefined env p ds →
        ∃ sig, (sig = 0 ∨ sig = L8W8JWT_SIGNATURE_VERIFICATION_FAILURE) ∧ v = sig ||| claimFlags (fun x => claimStarting x ds) env.now p) := by
  obtain ⟨arr, ds1, ds2, fs1, fs2, sig, v, e1, e2, e3, hv, c1, c2, -, -, hfull, hs, hval⟩ := decode_claims hc ht hp he hr
  have s1 := (claimsIn_members h1 c1).resolve_right (fun hx => absurd hx.1 (by decide))
  have s2 := (claimsIn_members h2 c2).resolve_right (fun hx => absurd hx.1 (by decide))
  obtain ⟨rfl, rfl⟩ := hfull (by rwa [sayAll_length s1.2, sayAll_length s2.2])
  have sa := sayAll_append s1.2 s2.2
  refine ⟨arr, ds1 ++ ds2, v, e1, ?_, e3, hv, sa, fun x1 x2 x3 => ⟨sig, hs, ?_⟩⟩
  · rw [e2, ← sayAll_length sa, hv.length]
  · have := validateClaims_eq hv x1 x2 x3 sig
    rw [hval] at this
    cases this
    rfl

/-- C42: without `\uXXXX` escape sequences in names and strings, the claims are determined by the members. -/
theorem C42_claims_exact {a b : Bytes} {l1 l2 : List (Bytes × Bytes)} {r : DecOut} (hc : CryptoOk env.crypto) (ht : TokenMem p tok)
    (hg : s.noGrowFail ∨ l1.length + l2.length ≤ 16) (hp : Parts tok a b) (h1 : JObject (jsonOf a) l1) (h2 : JObject (jsonOf b) l2) {c : Bool}
    (he : decode env (some p) false false c s h = .ok (r, h')) (hr : r.rc = L8W8JWT_SUCCESS) (hu : (l1 ++ l2).all plainPair = true) :
    ∃ arr, r.claims = some arr ∧ Views arr.items ((l1 ++ l2).map (jsonClaim env.checknum)) := by
  obtain ⟨arr, ds, v, e1, -, -, hv, hs, -⟩ := C42_top_level hc ht hg hp h1 h2 he hr
  rw [sayAll_eq hs hu] at hv
  exact ⟨arr, e1, hv⟩

/-- C45: no claims are invented by a successful run, whatever header and payload are. -/
theorem C45_decode_partial {a b : Bytes} {r : DecOut} (hc : CryptoOk env.crypto) (ht : TokenMem p tok)
    (hp : Parts tok a b) {c : Bool}
    (he : decode env (some p) false false c s h = .ok (r, h')) (hr : r.rc = L8W8JWT_SUCCESS) :
    ∃ arr ds1 ds2, r.claims = some arr ∧ Views arr.items (ds1 ++ ds2) ∧
      (∀ d ∈ ds1, FoundIn (readText a) d) ∧ (∀ d ∈ ds2, FoundIn (readText b) d) ∧
      (ds1 ≠ [] → ∃ w t, jsonOf a = w ++ 123 :: t ∧ ∀ x ∈ w, x = 32 ∨ x = 9 ∨ x = 10 ∨ x = 13 ∨ x = 44 ∨ x = 58) ∧
      (ds2 ≠ [] → ∃ w t, jsonOf b = w ++ 123 :: t ∧ ∀ x ∈ w, x = 32 ∨ x = 9 ∨ x = 10 ∨ x = 13 ∨ x = 44 ∨ x = 58) := by
  obtain ⟨arr, ds1, ds2, fs1, fs2, sig, v, e1, e2, e3, hv, c1, c2, s1, s2, -, hs, hval⟩ := decode_claims hc ht hp he hr
  have key : ∀ {a ds}, claimsIn env a = .ok (L8W8JWT_SUCCESS, ds) → (∀ d ∈ ds, FoundIn (cString (jsonOf a)) d) ∧
    (ds ≠ [] → ∃ w t, jsonOf a = w ++ 123 :: t ∧ ∀ x ∈ w, x = 32 ∨ x = 9 ∨ x = 10 ∨ x = 13 ∨ x = 44 ∨ x = 58) := by
    intro a ds h
    by_cases hne : jsonOf a = []
    · unfold claimsIn parsePure at h
      unfold jsonOf at hne
      rw [hne] at h
      cases h
      exact ⟨fun d hd => (nomatch hd), fun h => absurd rfl h⟩
    · exact claimsIn_found h hne
  exact ⟨arr, ds1, ds2, e1, hv, fun d hd => (key c1).1 d (s1.subset hd), fun d hd => (key c2).1 d (s2.subset hd),
    fun hx => (key c1).2 (fun hn => hx (List.sublist_nil.mp (hn ▸ s1))), fun hx => (key c2).2 (fun hn => hx (List.sublist_nil.mp (hn ▸ s2)))⟩

end L8w8jwt
