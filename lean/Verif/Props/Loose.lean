import Verif.Proofs.LooseJson
import Verif.Props.DecodeSafe
/-!
# Properties C44, C45, C57: what the claim parser makes of any text
-/

namespace L8w8jwt
open Spec

variable {s : Sched} {h h' : Heap} {env : Env} {p : DecParams} {tok : Bytes} {num : Bytes → Nat}

/-! ## C57: the parser -/

/-- C57: what there is in a text is well defined: every text has exactly one description. -/
theorem C57_total_unique (num : Bytes → Nat) (t : Bytes) : ∃ ok ds n b, Parsed num t ok ds n b ∧
    ∀ ok' ds' n' b', Parsed num t ok' ds' n' b' → ok' = ok ∧ ds' = ds ∧ n' = n ∧ b' = b := by
  obtain ⟨ok, ds, n, b, h⟩ := parsed_exist num t
  exact ⟨ok, ds, n, b, h, fun _ _ _ _ h' => parsed_unique h' h⟩

theorem tail_of {json : Bytes} {len : Nat} (hb : ∀ c, json[len]? = some c → letter c = false) : Tail json len :=
  fun _ _ _ _ _ _ c hc => hb c hc

/-- Whatever the garbage in the uninitialised slots, the parser does what the text says. -/
theorem parse_look {len : Nat} {json : Bytes} (h1 : len + 13 ≤ json.length) (hb : ∀ c, json[len]? = some c → letter c = false)
    {ok : Bool} {ds : List DClaim} {n : Nat} {b : Behind} (hp : Parsed env.checknum (cString (json.take len)) ok ds n b) (g : Nat → Tok) :
    ∃ vend : Int, (0 ≤ vend ∧ vend ≤ json.length) ∧
      parsePure (env.slack g) json len = lookBehind (env.slack g) (slots n) n vend b (parseRc ok, ds) :=
  parsePure_parsed (env := env.slack g) (by omega) (tail_of hb) hp

/-- C44, C57: parsing a text (of any kind) is defined, and the result is what the text says, whatever the uninitialised slots of the
token array contain, if the slots the parser looks at exist. `C44_defined_iff` shows that the condition is necessary. The octet
behind the text is not a letter of `true`, `false`, `null`: so it is in the buffers of the decoder (`behind_text`). -/
theorem C44_parse_partial {id len : Nat} {json : Bytes} (h1 : len + 13 ≤ json.length) (hlen : len < 2 ^ 64)
    (hb : ∀ c, json[len]? = some c → letter c = false) {ok : Bool} {ds : List DClaim} {n : Nat} {b : Behind}
    (hp : Parsed env.checknum (cString (json.take len)) ok ds n b) (hf : b.Fits n) (buf : List Claim) (g : Nat → Tok) :
    ∃ rc new h', parseClaims (env.slack g) buf (some ⟨id, json⟩) len s h = .ok ((rc, buf ++ new), h') ∧
      (s.noGrowFail → (Views new ds ∧ rc = if ok then L8W8JWT_SUCCESS else L8W8JWT_DECODE_FAILED_INVALID_TOKEN_FORMAT) ∨
        (rc = L8W8JWT_OUT_OF_MEM ∧ ¬ ∀ k, s.failAlloc k = false)) := by
  obtain ⟨vend, -, e⟩ := parse_look h1 hb hp g
  rw [fits_look hf] at e
  obtain ⟨x, h', hx, new, leak, ds', q⟩ := wp_iff_exists.mp
    (wp_parseClaims (s := s) (h := h) (env := env.slack g) (id := id) h1 hlen buf (fun _ => False) (Or.inl ⟨_, e⟩))
  obtain ⟨rc, cl⟩ := x
  have hcl : cl = buf ++ new := q.claims
  subst hcl
  refine ⟨rc, new, h', hx, fun hg => ?_⟩
  by_cases hr : rc = L8W8JWT_OUT_OF_MEM
  · rcases q.code with hc | hc | hc
    · exact absurd (hr.symm.trans hc) (by decide)
    · exact absurd (hr.symm.trans hc) (by decide)
    · exact Or.inr hc
  · have hd := q.data (Or.inl hg) hr
    rw [e] at hd
    cases hd
    exact Or.inl ⟨q.views, rfl⟩

/-- C44: texts with at most 62 items (of any kind, well-formed or not) are parsed without reading outside the token array, and no
uninitialised slot makes any difference to the run. Missing for the full statement: see `C44_parse_partial`. -/
theorem C44_few_partial {id len : Nat} {json : Bytes} (h1 : len + 13 ≤ json.length) (hlen : len < 2 ^ 64)
    (hf : FewItems (cString (json.take len))) (buf : List Claim) :
    (∃ x, parseClaims env buf (some ⟨id, json⟩) len s h = .ok x) ∧
    ∀ g, parseClaims (env.slack g) buf (some ⟨id, json⟩) len = parseClaims env buf (some ⟨id, json⟩) len :=
  parseClaims_few h1 hlen (fewItems_iff.mpr hf) buf

theorem good_not_oom (g : s.noAllocFail) {rc : Nat} (h : rc = L8W8JWT_SUCCESS ∨ rc = L8W8JWT_DECODE_FAILED_INVALID_TOKEN_FORMAT ∨
    (rc = L8W8JWT_OUT_OF_MEM ∧ ¬ ∀ k, s.failAlloc k = false)) : rc ≠ L8W8JWT_OUT_OF_MEM := by
  rcases h with h | h | h
  · rw [h]; decide
  · rw [h]; decide
  · exact absurd g h.2

/-- C44 is false: every text of 64 items or more that ends inside a claim or with an array or object (see `Pairs`) makes the parser
read behind the token array, whatever the slots contain. -/
theorem C44_overread_false {id len : Nat} {json : Bytes} (h1 : len + 13 ≤ json.length) (hlen : len < 2 ^ 64)
    (hb : ∀ c, json[len]? = some c → letter c = false) {ok : Bool} {ds : List DClaim} {n : Nat} {b : Behind}
    (hp : Parsed env.checknum (cString (json.take len)) ok ds n b) (hn : 64 ≤ n) (hx : b ≠ .none) (gd : s.noAllocFail) (buf : List Claim)
    (g : Nat → Tok) : parseClaims (env.slack g) buf (some ⟨id, json⟩) len s h = .error .oobRead := by
  obtain ⟨vend, -, e⟩ := parse_look h1 hb hp g
  rw [overread_look hx hn] at e
  have hw := wp_parseClaims (s := s) (h := h) (env := env.slack g) (id := id) h1 hlen buf (fun u => u = .oobRead) (Or.inr rfl)
  unfold wp at hw
  generalize parseClaims (env.slack g) buf (some ⟨id, json⟩) len s h = y at hw ⊢
  cases y with
  | error u => exact congrArg _ hw
  | ok y =>
    obtain ⟨new, leak, ds', q⟩ := hw
    obtain ⟨fs, this, -⟩ := q.full (good_not_oom gd q.code)
    rw [e] at this
    cases this

/-- C44 is false: for every text of 63 items that ends with an array or object, it depends on an uninitialised slot whether the
parser reads behind the token array. -/
theorem C44_slack_false {id len : Nat} {json : Bytes} (h1 : len + 13 ≤ json.length) (hlen : len < 2 ^ 64)
    (hb : ∀ c, json[len]? = some c → letter c = false) {ok : Bool} {ds : List DClaim}
    (hp : Parsed env.checknum (cString (json.take len)) ok ds 63 .two) (gd : s.noAllocFail) (buf : List Claim) :
    ∃ g g', parseClaims (env.slack g) buf (some ⟨id, json⟩) len s h = .error .oobRead ∧
      ∃ x, parseClaims (env.slack g') buf (some ⟨id, json⟩) len s h = .ok x := by
  have key : ∀ g, ∃ vend : Int, (0 ≤ vend ∧ vend ≤ json.length) ∧ parsePure (env.slack g) json len =
      if (g 63).end_ ≤ vend then .error .oobRead else .ok (parseRc ok, ds) := by
    intro g
    obtain ⟨vend, hv, e⟩ := parse_look h1 hb hp g
    refine ⟨vend, hv, e.trans ?_⟩
    have h2 : skipNested (env.slack g) (slots 63) 63 vend [] = if (g 63).end_ ≤ vend then .error .oobRead else .ok [] := rfl
    unfold lookBehind
    simp only [h2]
    split <;> rfl
  obtain ⟨v1, b1, e1⟩ := key fun _ => ⟨.undefined, 0, 0⟩
  obtain ⟨v2, b2, e2⟩ := key fun _ => ⟨.undefined, 0, json.length + 1⟩
  rw [if_pos (show (0 : Int) ≤ v1 from b1.1)] at e1
  rw [if_neg (show ¬ ((json.length : Int) + 1 ≤ v2) by omega)] at e2
  refine ⟨fun _ => ⟨.undefined, 0, 0⟩, fun _ => ⟨.undefined, 0, json.length + 1⟩, ?_, ?_⟩
  · have hw := wp_parseClaims (s := s) (h := h) (env := env.slack fun _ => ⟨.undefined, 0, 0⟩) (id := id) h1 hlen buf
      (fun u => u = .oobRead) (Or.inr rfl)
    unfold wp at hw
    generalize parseClaims (env.slack fun _ => ⟨.undefined, 0, 0⟩) buf (some ⟨id, json⟩) len s h = y at hw ⊢
    cases y with
    | error u => exact congrArg _ hw
    | ok y =>
      obtain ⟨new, leak, ds', q⟩ := hw
      obtain ⟨fs, this, -⟩ := q.full (good_not_oom gd q.code)
      rw [e1] at this
      cases this
  · obtain ⟨x, h', hx, -⟩ := wp_iff_exists.mp (wp_parseClaims (s := s) (h := h) (env := env.slack fun _ => ⟨.undefined, 0, json.length + 1⟩)
      (id := id) h1 hlen buf (fun _ => False) (Or.inl ⟨_, e2⟩))
    exact ⟨_, hx⟩

/-- C44: exactly which texts are parsed without undefined behaviour whatever the uninitialised slots contain. -/
theorem C44_defined_iff {id len : Nat} {json : Bytes} (h1 : len + 13 ≤ json.length) (hlen : len < 2 ^ 64)
    (hb : ∀ c, json[len]? = some c → letter c = false) (gd : s.noAllocFail) (buf : List Claim) :
    (∀ g, ∃ x, parseClaims (env.slack g) buf (some ⟨id, json⟩) len s h = .ok x) ↔ Roomy env.checknum (cString (json.take len)) := by
  constructor
  · intro hd ok ds n b hp
    by_cases hx : b = .none
    · rw [hx]; trivial
    by_cases hn : 64 ≤ n
    · obtain ⟨x, e⟩ := hd fun _ => ⟨.undefined, 0, 0⟩
      rw [C44_overread_false h1 hlen hb hp hn hx gd] at e
      cases e
    cases b with
    | none => trivial
    | one => exact show n ≤ 63 by omega
    | two =>
      by_cases h63 : n = 63
      · subst h63
        obtain ⟨g, -, e, -⟩ := C44_slack_false (id := id) (h := h) h1 hlen hb hp gd buf
        obtain ⟨x, e'⟩ := hd g
        rw [e] at e'
        cases e'
      · exact show n ≤ 62 by omega
  · intro hr g
    obtain ⟨ok, ds, n, b, hp⟩ := parsed_exist env.checknum (cString (json.take len))
    obtain ⟨rc, new, h', e, -⟩ := C44_parse_partial (id := id) (s := s) (h := h) h1 hlen hb hp (hr _ _ _ _ hp) buf g
    exact ⟨_, e⟩

/-! ## C57: the decoder -/

theorem sigOk_true (hs : SigOk env p tok) {r : VerRes} (h : Sig env p tok r) : r = .ok true := by
  rcases h with ⟨-, h⟩ | ⟨h1, a, b, c, d, h3, hd, hp⟩
  · exact h
  · rcases hs with hs | ⟨hal, a', b', c', h3', hver⟩
    · exact absurd hs h1
    · obtain ⟨rfl, rfl, rfl⟩ := three_unique h3 h3'
      match r, hp with
      | .ok true, _ => rfl
      | .ok false, hp => exact absurd hver hp.2.2
      | .error rc, hp => exact absurd hver (verFails_not hp)

theorem claimsIn_fits {a : Bytes} {ok : Bool} {ds : List DClaim} {n : Nat} {b : Behind} (hp : Parsed env.checknum (readText a) ok ds n b)
    (hf : b.Fits n) : claimsIn env a = .ok (parseRc ok, ds) := by
  obtain ⟨vend, -, e⟩ := claimsIn_parsed hp
  rwa [fits_look hf] at e

/-- C57: the decoder does what header and payload say: if the parts of the token can be decoded and the signature is right (or not
to be verified), then the token is accepted exactly if header and payload are texts that are accepted; the claims are all the
claims found in them, in order. (No allocation fails, except perhaps growing the claims buffer if that is not necessary; `Tame`
excludes undefined behaviour.) -/
theorem C57_decides (hc : CryptoOk env.crypto) (hv : validateDecodingParams env (some p) = L8W8JWT_SUCCESS) (ht : TokenMem p tok)
    (g : s.noAllocFail) (t : Tame env s p tok) (hseg : SegCode p.alg tok L8W8JWT_SUCCESS) (hs : SigOk env p tok) {x y : Bytes} (hp : Parts tok x y)
    {ok1 ok2 : Bool} {ds1 ds2 : List DClaim} {n1 n2 : Nat} {b1 b2 : Behind} (p1 : Parsed env.checknum (readText x) ok1 ds1 n1 b1)
    (p2 : Parsed env.checknum (readText y) ok2 ds2 n2 b2) (hroom : s.noGrowFail ∨ ds1.length + ds2.length ≤ 16) :
    ∃ r h', decode env (some p) false false false s h = .ok (r, h') ∧
      ((ok1 = true ∧ ok2 = true ∧ r.rc = L8W8JWT_SUCCESS ∧ ∃ arr v, r.claims = some arr ∧ r.claimsLength = some arr.items.length ∧
          Views arr.items (ds1 ++ ds2) ∧ r.validation = some v ∧ ¬ SigFailed v) ∨
        ((ok1 = false ∨ ok2 = false) ∧ r.rc = L8W8JWT_DECODE_FAILED_INVALID_TOKEN_FORMAT ∧ r.claims = none)) := by
  obtain ⟨f1, f2⟩ := t.tokens x y hp
  have c1 := claimsIn_fits p1 (f1 _ _ _ _ p1)
  have c2 := claimsIn_fits p2 (f2 _ _ _ _ p2)
  obtain ⟨r, h', he, ⟨st, out, -, rfl⟩, -⟩ :=
    wp_iff_exists.mp (wp_decode (s := s) (h := h) hc hv ht false false (Or.inr rfl) (fun _ => False) (Or.inl t.safe))
  refine ⟨_, h', he, ?_⟩
  have rcs : ∀ {ok : Bool}, parseRc ok = L8W8JWT_SUCCESS → ok = true := by
    intro ok h
    cases ok with
    | true => rfl
    | false => exact absurd h (by decide)
  cases out with
  | oom hn => exact absurd g hn
  | segs hi hn =>
    rcases hi.code with h1 | h1
    · exact absurd (SegCode_unique h1 hseg) hn
    · exact absurd g h1.2
  | verify _ _ hx => cases sigOk_true hs hx
  | @claims sg blk cs a' b' vr _ _ _ hp' hcl =>
    obtain ⟨rfl, rfl⟩ := parts_unique hp hp'
    refine Or.inr ⟨?_, rfl, rfl⟩
    rcases hcl g with ⟨rc, ds, h1, hn⟩ | ⟨_, rc, ds, -, h1, hn⟩
    · rw [c1] at h1
      cases h1
      cases ok1 with
      | true => exact absurd rfl hn
      | false => exact Or.inl rfl
    · rw [c2] at h1
      cases h1
      cases ok2 with
      | true => exact absurd rfl hn
      | false => exact Or.inr rfl
  | @done sg blk cs a' b' vr v ds1' ds2' _ _ hx hp' hvw hcl hval =>
    obtain ⟨rfl, rfl⟩ := parts_unique hp hp'
    obtain ⟨c1', c2'⟩ := hcl (hroom.imp (fun x => x) fun hl a b hab => by
      obtain ⟨rfl, rfl⟩ := parts_unique hp hab
      exact ⟨_, _, c1, c2, hl⟩)
    have e1 := congrArg (Except.map Prod.fst) (c1.symm.trans c1')
    have e2 := congrArg (Except.map Prod.fst) (c2.symm.trans c2')
    injection e1 with e1
    injection e2 with e2
    have o1 := rcs e1
    have o2 := rcs e2
    subst o1; subst o2
    have d1 := c1.symm.trans c1'
    have d2 := c2.symm.trans c2'
    cases d1
    cases d2
    cases sigOk_true hs hx
    refine Or.inl ⟨rfl, rfl, rfl, ⟨some blk, cs⟩, v, rfl, rfl, hvw, rfl, ?_⟩
    have := validateClaims_sig hval
    unfold SigFailed
    show ¬ (v &&& 128 ≠ 0)
    rw [this]
    decide

/-- C57: in every successful run (also with a wrong signature, and with all kinds of failures of the allocator) header and payload are
texts that are accepted. The claims handed out are found in them, in order; and they are all the claims found in them if growing the
claims buffer does not fail, or there are at most 16. -/
theorem C57_accepted {x y : Bytes} {r : DecOut} (hc : CryptoOk env.crypto) (ht : TokenMem p tok) (hp : Parts tok x y)
    {c : Bool} (he : decode env (some p) false false c s h = .ok (r, h')) (hr : r.rc = L8W8JWT_SUCCESS) :
    ∃ arr ds1 ds2 fs1 n1 b1 fs2 n2 b2, Parsed env.checknum (readText x) true fs1 n1 b1 ∧ Parsed env.checknum (readText y) true fs2 n2 b2 ∧
      r.claims = some arr ∧ r.claimsLength = some arr.items.length ∧ Views arr.items (ds1 ++ ds2) ∧ ds1.Sublist fs1 ∧ ds2.Sublist fs2 ∧
      (s.noGrowFail ∨ fs1.length + fs2.length ≤ 16 → ds1 = fs1 ∧ ds2 = fs2) := by
  obtain ⟨arr, ds1, ds2, fs1, fs2, sig, v, e1, e2, e3, hv, c1, c2, s1, s2, hfull, -⟩ := decode_claims hc ht hp he hr
  obtain ⟨ok1, n1, b1, p1, r1, -⟩ := claimsIn_ok c1
  obtain ⟨ok2, n2, b2, p2, r2, -⟩ := claimsIn_ok c2
  have o1 : ok1 = true := by cases ok1 with | true => rfl | false => exact absurd r1 (by decide)
  have o2 : ok2 = true := by cases ok2 with | true => rfl | false => exact absurd r2 (by decide)
  subst o1; subst o2
  exact ⟨arr, ds1, ds2, fs1, n1, b1, fs2, n2, b2, p1, p2, e1, e2, hv, s1, s2, hfull⟩

/-- C57: tokens with a header or payload that is not accepted are rejected in every run, whatever fails. -/
theorem C57_rejected {x y : Bytes} {r : DecOut} (hc : CryptoOk env.crypto) (ht : TokenMem p tok) (hp : Parts tok x y)
    {ds : List DClaim} {n : Nat} {b : Behind} (hx : Parsed env.checknum (readText x) false ds n b ∨ Parsed env.checknum (readText y) false ds n b)
    {c : Bool} (he : decode env (some p) false false c s h = .ok (r, h')) : r.rc ≠ L8W8JWT_SUCCESS := by
  intro hr
  obtain ⟨arr, ds1, ds2, fs1, n1, b1, fs2, n2, b2, p1, p2, -⟩ := C57_accepted hc ht hp he hr
  rcases hx with hx | hx
  · cases (parsed_unique hx p1).1
  · cases (parsed_unique hx p2).1

/-- C57, C42: JSON objects with values of known types are accepted, with one claim for each member. -/
theorem C57_json {t : Bytes} {l : List (Bytes × Bytes)} (h : JObject t l) (ht : l.all (fun m => (valueType num m.2).isSome) = true) :
    ∃ ds n b, SayAll num l ds ∧ PairsSize l n ∧ Parsed num t true ds (n + 1) b ∧ (b = if lastComposite l then .two else .none) := by
  obtain ⟨ds, n, h1, h2, h3⟩ := parsed_typed h ht
  exact ⟨ds, n, _, h1, h2, h3, rfl⟩

/-! ## C44: whole tokens -/

theorem overReads_claimsIn {a : Bytes} (h : OverReads env.checknum (readText a)) : claimsIn env a = .error .oobRead := by
  obtain ⟨ok, ds, n, b, hp, hn, hb⟩ := h
  obtain ⟨vend, -, e⟩ := claimsIn_parsed hp
  rwa [overread_look hb hn] at e

/-- Runs of the decoder that return do not get as far as parsing such a header, or such a payload after a header that is accepted. -/
theorem C44_decode_false {x y : Bytes} (hc : CryptoOk env.crypto) (ht : TokenMem p tok) (g : s.noAllocFail) (hp : Parts tok x y)
    (hseg : SegCode p.alg tok L8W8JWT_SUCCESS) (hx : OverReads env.checknum (readText x) ∨
      (∃ ds n b, Parsed env.checknum (readText x) true ds n b) ∧ OverReads env.checknum (readText y)) {a b c : Bool} :
    (∀ r h', decode env (some p) a b c s h = .ok (r, h') → r.rc ≠ L8W8JWT_SUCCESS ∧ r.rc ≠ L8W8JWT_DECODE_FAILED_INVALID_TOKEN_FORMAT) ∧
    (SigOk env p tok → validateDecodingParams env (some p) = L8W8JWT_SUCCESS → a = false → (b = true ∨ c = false) →
      ∃ e, decode env (some p) a b c s h = .error e) := by
  have hcl : ¬ ((∃ rc ds, claimsIn env x = .ok (rc, ds) ∧ rc ≠ L8W8JWT_SUCCESS) ∨
      ∃ ds1 rc ds, claimsIn env x = .ok (L8W8JWT_SUCCESS, ds1) ∧ claimsIn env y = .ok (rc, ds)) := by
    rcases hx with hx | ⟨⟨ds, n, b, hx⟩, hy⟩
    · rw [overReads_claimsIn hx]
      rintro (⟨_, _, h, -⟩ | ⟨_, _, _, h, -⟩) <;> cases h
    · rw [overReads_claimsIn hy]
      rintro (⟨rc, ds, h, hn⟩ | ⟨_, _, _, -, h⟩)
      · obtain ⟨ok, n, b, hz, e, -⟩ := claimsIn_ok h
        rw [(parsed_unique hz hx).1] at e
        exact hn e
      · cases h
  have key : ∀ {st h1}, validateDecodingParams env (some p) = L8W8JWT_SUCCESS → decodeBody env p s h = .ok (st, h1) →
      (st.rc ≠ L8W8JWT_SUCCESS ∧ st.rc ≠ L8W8JWT_DECODE_FAILED_INVALID_TOKEN_FORMAT) ∧ ¬ SigOk env p tok := by
    intro st h1 hv hb
    have out := outcome_of hc hv ht hb
    cases out with
    | oom hn => exact absurd g hn
    | segs hi hn =>
      rcases hi.code with h1 | h1
      · exact absurd (SegCode_unique h1 hseg) hn
      · exact absurd g h1.2
    | verify _ _ hs =>
      refine ⟨?_, fun h => by cases sigOk_true h hs⟩
      rcases hs with ⟨_, hx⟩ | ⟨_, _, _, _, _, _, _, hp⟩
      · cases hx
      · exact verFails_codes hp
    | claims _ _ _ hp' h =>
      obtain ⟨rfl, rfl⟩ := parts_unique hp hp'
      refine absurd ?_ hcl
      rcases h g with h | ⟨d, rc, ds, h1, h2, -⟩
      · exact Or.inl h
      · exact Or.inr ⟨d, rc, ds, h1, h2⟩
    | done _ _ _ hp' _ _ _ h =>
      obtain ⟨rfl, rfl⟩ := parts_unique hp hp'
      obtain ⟨_, _, h1, h2, -⟩ := h
      exact absurd (Or.inr ⟨_, _, _, h1, h2⟩) hcl
  constructor
  · intro r h' he
    rcases decode_returns he with ⟨-, hr, -, hx⟩ | ⟨q, st, h1, hq, -, -, hv, hb, ho⟩
    · exact ⟨hr, decode_early he hx⟩
    · cases hq
      rw [ho]
      unfold decOut
      split <;> exact (key hv hb).1
  · intro hs hv ha hbc
    cases he : decode env (some p) a b c s h with
    | error e => exact ⟨e, rfl⟩
    | ok z =>
      obtain ⟨r, h'⟩ := z
      rcases decode_returns he with ⟨-, -, -, hx⟩ | ⟨q, st, h1, hq, -, -, hv, hb, ho⟩
      · exfalso
        rcases hx with hx | hx | hx
        · exact hx hv
        · rw [ha] at hx; cases hx
        · rcases hbc with hbc | hbc
          · rw [hbc] at hx; cases hx.1
          · rw [hbc] at hx; cases hx.2
      · cases hq
        exact absurd hs (key hv hb).2

/-! ## C45 -/

theorem jtext_nul {k : JKind} {t : Bytes} (h : JText k t) : 0 ∉ t := by
  obtain ⟨n, hn⟩ := jtext_size h
  obtain ⟨toks, -, hr, -⟩ := jsize_runs hn 0
  exact hr.nul

theorem cString_id {t : Bytes} (h : 0 ∉ t) : cString t = t := by
  unfold cString
  induction t with
  | nil => rfl
  | cons c t ih =>
    have hc : (c != 0) = true := by
      simp only [bne_iff_ne, ne_eq]
      rintro rfl
      exact h (by simp)
    rw [List.takeWhile_cons, hc, if_pos rfl, ih (fun hx => h (by simp [hx]))]

theorem jws_nul {w : Bytes} (h : JWs w) : 0 ∉ w := by
  intro hx
  have := h 0 hx
  revert this
  decide

theorem jobject_nul {t : Bytes} {l : List (Bytes × Bytes)} (h : JObject t l) : 0 ∉ t := by
  cases h with
  | empty ha hw hb => simp [jws_nul ha, jws_nul hw, jws_nul hb]
  | full ha hm hb => simp [jws_nul ha, jtext_nul (jmembers_text hm), jws_nul hb]

/-- C45: tokens whose header or payload is a JSON text other than an object are rejected. Missing for the full statement: texts that
are not JSON, some of which are accepted (`C45_false`; which ones exactly is what `C57_decides` says). -/
theorem C45_value_partial {x y : Bytes} {r : DecOut} (hc : CryptoOk env.crypto) (ht : TokenMem p tok)
    (hp : Parts tok x y) {w v w' : Bytes} (hw : JWs w) (hv : JText .value v) (hw' : JWs w') (ho : v.head? ≠ some 123)
    (hj : jsonOf x = w ++ (v ++ w') ∨ jsonOf y = w ++ (v ++ w')) {c : Bool}
    (he : decode env (some p) false false c s h = .ok (r, h')) : r.rc ≠ L8W8JWT_SUCCESS := by
  obtain ⟨n, hn⟩ := parsed_value (num := env.checknum) hw hv hw' ho
  have h0 : 0 ∉ w ++ (v ++ w') := by simp [jws_nul hw, jtext_nul hv, jws_nul hw']
  refine C57_rejected hc ht hp (ds := []) (n := n) (b := .none) ?_ he
  unfold readText
  rcases hj with hj | hj
  · left; rw [hj, cString_id h0]; exact hn
  · right; rw [hj, cString_id h0]; exact hn

/-- C45, C46: tokens whose header or payload is a JSON object with a value of unknown type are rejected. -/
theorem C45_untyped_partial {x y : Bytes} {r : DecOut} (hc : CryptoOk env.crypto) (ht : TokenMem p tok)
    (hp : Parts tok x y) {l : List (Bytes × Bytes)} (hj : JObject (jsonOf x) l ∨ JObject (jsonOf y) l) {m : Bytes × Bytes} (hm : m ∈ l)
    (hu : valueType env.checknum m.2 = none) {c : Bool}
    (he : decode env (some p) false false c s h = .ok (r, h')) : r.rc ≠ L8W8JWT_SUCCESS := by
  have hl : l.all (fun m => (valueType env.checknum m.2).isSome) = false := by
    rw [List.all_eq_false]
    exact ⟨m, hm, by simp [hu]⟩
  have key : ∀ {t}, JObject t l → ∃ ds n, Parsed env.checknum (cString t) false ds n .none := by
    intro t h
    obtain ⟨ds, n, -, hq⟩ := parsed_untyped h hl
    rw [cString_id (jobject_nul h)]
    exact ⟨ds, _, hq⟩
  rcases hj with hj | hj
  · obtain ⟨ds, n, hq⟩ := key hj
    exact C57_rejected hc ht hp (Or.inl hq) he
  · obtain ⟨ds, n, hq⟩ := key hj
    exact C57_rejected hc ht hp (Or.inr hq) he

/-! ## Examples -/

/-- What is accepted behind the object: a claim without comma. -/
example : Parsed (fun _ => 1) (str "{}\"a\":1") true [⟨str "a", str "1", 1⟩] 3 .none := by
  have h1 : Items (str "1") [⟨str "1", 1⟩] := .word (w := str "1") ⟨49, [], rfl, rfl, by decide, by decide, by decide, fun _ h => nomatch h⟩ (fun _ h => nomatch h) .nil
  have h2 : Items (str "\"a\":1") [⟨str "\"a\"", 1⟩, ⟨str "1", 1⟩] :=
    .string (b := str "a") (.plain (by decide) (by decide) .nil) (.gap (c := 58) rfl h1)
  refine .object (v := ⟨str "{}", 1⟩) (l := [⟨str "\"a\"", 1⟩, ⟨str "1", 1⟩]) (a := []) (k := []) (.object (a := []) .nil h2) rfl .nil ?_
  refine .cons rfl ⟨rfl, ?_, fun h => absurd h (by decide), fun _ => rfl⟩ (fun _ => rfl) .nil
  exact .other (by decide) .nil

/-- Closing brackets only: accepted, without claims. A bracket that is not closed: rejected. -/
example : Parsed (fun _ => 1) (str "]}, ") true [] 0 .none := .empty (by decide)

example : ∃ ds n b, Parsed toy.checknum (str "{\"a\":[1}") false ds n b := by
  obtain ⟨ok, ds, n, b, hp⟩ := parsed_exist toy.checknum (str "{\"a\":[1}")
  cases ok with
  | false => exact ⟨ds, n, b, hp⟩
  | true =>
    exfalso
    have h1 := claimsIn_parsed (env := toy) (a := b64 true (str "{\"a\":[1}")) (ok := true) (ds := ds) (n := n) (b := b)
      (by rw [readText, jsonOf, b64Decode_b64 (by decide)]; exact hp)
    obtain ⟨vend, -, e⟩ := h1
    have h2 : claimsIn toy (b64 true (str "{\"a\":[1}")) = .ok (L8W8JWT_DECODE_FAILED_INVALID_TOKEN_FORMAT, []) := by decide +kernel
    rw [h2] at e
    have := look_ok e.symm
    cases this

/-- `fullJson` over-reads from 64 items on. -/
theorem fullJson_object (n : Nat) : JObject (fullJson n) (List.replicate n (str "a", str "1") ++ [(str "b", str "[1]")]) := by
  have one : JText .value (str "1") := .num ⟨[], str "1", [], [], rfl, Or.inl rfl, Or.inr ⟨⟨by decide, by decide⟩, by decide⟩, Or.inl rfl, Or.inl rfl⟩
  have arr : JText .value (str "[1]") := .arr (t := str "1") (.elem (a := []) (b := []) jws_nil one jws_nil)
  have hm : JMembers ((List.replicate n (str "\"a\":1,")).flatten ++ str "\"b\":[1]") (List.replicate n (str "a", str "1") ++ [(str "b", str "[1]")]) := by
    induction n with
    | zero => exact .mem (a := []) (k := str "b") (b := []) (c := []) (d := []) jws_nil ⟨str "b", rfl⟩ jws_nil jws_nil arr jws_nil
    | succ n ih =>
      rw [List.replicate_succ, List.flatten_cons, List.replicate_succ, List.append_assoc]
      exact .mems (a := []) (k := str "a") (b := []) (c := []) (d := []) jws_nil ⟨str "a", rfl⟩ jws_nil jws_nil one jws_nil ih
  have := JObject.full (a := []) (b := []) jws_nil hm jws_nil
  have e : fullJson n = [] ++ 123 :: (((List.replicate n (str "\"a\":1,")).flatten ++ str "\"b\":[1]") ++ 125 :: []) := by
    simp [fullJson, str]
  rw [e]
  exact this

example : OverReads toy.checknum (fullJson 30) := by
  obtain ⟨ds, n, -, h2, h3⟩ := parsed_typed (num := toy.checknum) (fullJson_object 30) (by decide +kernel)
  have one : JSize .value (str "1") 1 := .num ⟨[], str "1", [], [], rfl, Or.inl rfl, Or.inr ⟨⟨by decide, by decide⟩, by decide⟩, Or.inl rfl, Or.inl rfl⟩
  have arr : JSize .value (str "[1]") 2 := .arr (t := str "1") (.elem (a := []) (b := []) jws_nil one jws_nil)
  have hs : ∀ k, PairsSize (List.replicate k (str "a", str "1") ++ [(str "b", str "[1]")]) (2 * k + 3) := by
    intro k
    induction k with
    | zero => exact .cons arr .nil
    | succ k ih =>
      rw [show 2 * (k + 1) + 3 = 1 + 1 + (2 * k + 3) by omega]
      exact .cons one ih
  have := pairsSize_unique h2 (hs 30)
  exact ⟨_, _, _, _, h3, by omega, by decide +kernel⟩

end L8w8jwt
