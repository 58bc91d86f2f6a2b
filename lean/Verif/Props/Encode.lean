import Verif.Proofs.EncodeMain
import Verif.Proofs.Toy
import Verif.Props.Claim
/-!
# Properties of the encoder
-/

namespace L8w8jwt
open Spec

variable {s : Sched} {h h' : Heap} {env : Env} {p : EncParams} {r : EncOut}

/-! ## C16 -/

/-- C16: what `l8w8jwt_validate_encoding_params` returns, exactly. -/
theorem C16_validate (q : Option EncParams) :
    (validateEncodingParams q = L8W8JWT_NULL_ARG ↔
      ∀ p, q = some p → p.secretKey = none ∨ p.outNull = true ∨ p.outLengthNull = true) ∧
    (validateEncodingParams q = L8W8JWT_INVALID_ARG ↔ ∃ p, q = some p ∧ p.secretKey ≠ none ∧ p.outNull = false ∧
      p.outLengthNull = false ∧ (p.secretKeyLength = 0 ∨ 8192 < p.secretKeyLength ∨
        (p.payloadClaims ≠ none ∧ p.payloadClaimsCount = 0) ∨ (p.headerClaims ≠ none ∧ p.headerClaimsCount = 0))) ∧
    (validateEncodingParams q ≠ L8W8JWT_NULL_ARG → validateEncodingParams q ≠ L8W8JWT_INVALID_ARG →
      validateEncodingParams q = L8W8JWT_SUCCESS) := by
  cases q with
  | none => decide
  | some p =>
    have hm : L8W8JWT_MAX_KEY_SIZE = 8192 := rfl
    have hn : L8W8JWT_NULL_ARG ≠ L8W8JWT_INVALID_ARG ∧ L8W8JWT_INVALID_ARG ≠ L8W8JWT_NULL_ARG ∧
      L8W8JWT_SUCCESS ≠ L8W8JWT_NULL_ARG ∧ L8W8JWT_SUCCESS ≠ L8W8JWT_INVALID_ARG := by decide
    simp only [validateEncodingParams, hm]
    cases h1 : p.secretKey <;> cases h2 : p.outNull <;> cases h3 : p.outLengthNull <;>
      simp [h1, h2, h3, hn]
    cases h4 : p.payloadClaims <;> cases h5 : p.headerClaims <;>
      by_cases h6 : p.secretKeyLength = 0 <;> by_cases h7 : 8192 < p.secretKeyLength <;>
      by_cases h8 : p.payloadClaimsCount = 0 <;> by_cases h9 : p.headerClaimsCount = 0 <;>
      simp [h6, h7, h8, h9, hn]

/-- C16: `l8w8jwt_encode` returns that code, writes nothing and allocates nothing. -/
theorem C16_encode_invalid (q : Option EncParams) (hv : validateEncodingParams q ≠ L8W8JWT_SUCCESS) :
    encode env q s h = .ok ({ rc := validateEncodingParams q }, h) := by
  unfold encode
  rw [if_pos hv]
  rfl

example : validateEncodingParams (some toyParams) = L8W8JWT_SUCCESS ∧
    validateEncodingParams (some { toyParams with secretKeyLength := 8193 }) = L8W8JWT_INVALID_ARG ∧
    validateEncodingParams (some { toyParams with outNull := true, secretKeyLength := 0 }) = L8W8JWT_NULL_ARG ∧
    validateEncodingParams (some { toyParams with headerClaims := some [] }) = L8W8JWT_INVALID_ARG := by decide

/-! ## C24, C25: failure leaves nothing behind -/

theorem encode_any (he : encode env (some p) s h = .ok (r, h')) :
    (r.rc = L8W8JWT_SUCCESS → ∃ b, r.out = some (some b) ∧ h'.live = b.id :: h.live) ∧
    (r.rc ≠ L8W8JWT_SUCCESS → r.outLength = none ∧ (r.out = none ∨ r.out = some none) ∧ h'.live = h.live) := by
  by_cases hv : validateEncodingParams (some p) = L8W8JWT_SUCCESS
  · have := wp_iff_forall.mp (wp_encode_any (s := s) (h := h) env p hv) r h' he
    refine ⟨fun hr => ?_, fun hr => ?_⟩
    · obtain ⟨-, hdr, pay, sig, tok, id, msg, -, -, -, -, -, -, e, -, l, -⟩ := this.success hr
      exact ⟨_, e, l⟩
    · obtain ⟨a, b, c, -⟩ := this.failure hr
      exact ⟨a, b, c⟩
  · rw [C16_encode_invalid _ hv] at he
    cases he
    exact ⟨fun hr => absurd hr hv, fun _ => ⟨rfl, Or.inl rfl, rfl⟩⟩

/-- C24: on failure `*out_length` is not written and `*out` is untouched or NULL, for every parameter struct, every
schedule of allocation failures and every behaviour of the cryptographic primitives. -/
theorem C24_failure_no_output (q : Option EncParams) (he : encode env q s h = .ok (r, h')) (hr : r.rc ≠ L8W8JWT_SUCCESS) :
    r.outLength = none ∧ (r.out = none ∨ r.out = some none) := by
  cases q with
  | none => cases he; exact ⟨rfl, Or.inl rfl⟩
  | some p => obtain ⟨a, b, -⟩ := (encode_any he).2 hr; exact ⟨a, b⟩

/-- C25: nothing stays allocated except the token on success, whatever failed. (Freeing a block that is not live is
undefined behaviour in the model, so every block is freed exactly once.) -/
theorem C25_no_leak (q : Option EncParams) (he : encode env q s h = .ok (r, h')) :
    (r.rc = L8W8JWT_SUCCESS → ∃ b, r.out = some (some b) ∧ h'.live = b.id :: h.live) ∧
    (r.rc ≠ L8W8JWT_SUCCESS → h'.live = h.live) := by
  cases q with
  | none => cases he; exact ⟨fun hr => absurd hr (by decide), fun _ => rfl⟩
  | some p => exact ⟨(encode_any he).1, fun hr => ((encode_any he).2 hr).2.2⟩

/-- A failing allocation in every position of a small encoding: error or token, never a leak. -/
example : ∀ k : Fin 12, (match encode toy (some toyParams) { failAlloc := fun i => i == k.val, failGrow := fun _ => none } heap0 with
    | .ok (r, h') => (if r.rc = 0 then h'.live.length == 1 else h'.live.isEmpty && r.outLength == none)
    | .error _ => false) = true := by decide +kernel

/-! ## C19 -/

/-- C19: only the 14 supported ids can succeed. -/
theorem C19_known_alg (he : encode env (some p) s h = .ok (r, h')) (hr : r.rc = L8W8JWT_SUCCESS) : 0 ≤ p.alg ∧ p.alg ≤ 13 := by
  by_cases hv : validateEncodingParams (some p) = L8W8JWT_SUCCESS
  · have := wp_iff_forall.mp (wp_encode_any (s := s) (h := h) env p hv) r h' he
    have := (this.success hr).1
    rcases alg?_range p.alg with ⟨j, hj⟩ | ⟨h1, -⟩
    · omega
    · rw [h1] at this; cases this
  · rw [C16_encode_invalid _ hv] at he; cases he; exact absurd hr hv

/-- C19: any other id gives an error without undefined behaviour and without touching the outputs. The error is that of invalid
arguments, unless others are found before. -/
theorem C19_unknown_alg (ha : p.alg < 0 ∨ 13 < p.alg) : ∃ rc h', encode env (some p) s h = .ok ({ rc := rc }, h') ∧
    rc ≠ L8W8JWT_SUCCESS ∧ h'.live = h.live ∧ (rc = L8W8JWT_INVALID_ARG ∨ rc = validateEncodingParams (some p) ∨
      (rc = L8W8JWT_OUT_OF_MEM ∧ ∃ k, s.failAlloc k = true)) := by
  by_cases hv : validateEncodingParams (some p) = L8W8JWT_SUCCESS
  · have hn : headerPrefix p.alg = none := by
      rcases alg?_range p.alg with ⟨j, hj⟩ | ⟨h1, -⟩
      · omega
      · rcases headerPrefix_eq p.alg with ⟨-, h2⟩ | ⟨_, _, _, _, h2, -⟩
        · exact h2
        · rw [h1] at h2; cases h2
    suffices hw : wp (encode env (some p)) s h (fun r h' => r = { rc := r.rc } ∧ r.rc ≠ L8W8JWT_SUCCESS ∧ h'.live = h.live ∧
        (r.rc = L8W8JWT_INVALID_ARG ∨ (r.rc = L8W8JWT_OUT_OF_MEM ∧ ∃ k, s.failAlloc k = true))) (fun _ => False) by
      obtain ⟨r, h', e, e1, e2, e3, e4⟩ := wp_iff_exists.mp hw
      exact ⟨r.rc, h', by rw [e, ← e1], e2, e3, e4.imp id Or.inr⟩
    simp only [encode, hv, ne_eq, not_true_eq_false, if_false, wp_bind, wp_alloc]
    refine ⟨fun hf => ⟨rfl, by decide, rfl, Or.inr ⟨rfl, _, hf⟩⟩, fun _ => ?_⟩
    simp only [wp_bind, encodeBody, writeHeaderAndPayload, wp_alloc, hn]
    refine ⟨fun hf => ?_, fun _ => ?_⟩
    · rw [wp_pure]
      rw [if_pos (by decide), wp_pure]
      exact wp_free_some _ _ _ (by simp) ⟨rfl, by decide, by simp, Or.inr ⟨rfl, _, hf⟩⟩
    · refine wp_free_some _ _ _ (by simp) ?_
      rw [wp_pure]
      rw [if_pos (by decide), wp_pure]
      exact wp_free_some _ _ _ (by simp) ⟨rfl, by decide, by simp, Or.inl rfl⟩
  · exact ⟨_, _, C16_encode_invalid _ hv, hv, rfl, Or.inr (Or.inl rfl)⟩

example : (encode toy (some { toyParams with alg := -1 }) calm heap0).map (·.1) = .ok { rc := L8W8JWT_INVALID_ARG } ∧
    (encode toy (some { toyParams with alg := encodingParamsInit.alg }) calm heap0).map (·.1) = .ok { rc := L8W8JWT_INVALID_ARG } ∧
    (encode toy (some toyParams) calm heap0).map (·.1.rc) = .ok L8W8JWT_SUCCESS := by decide +kernel

/-! ## C17 -/

/-- C17: shape of the token. No assumption on the parameters or on the cryptographic primitives. -/
theorem C17_token_shape (g : s.noGrowFail) (he : encode env (some p) s h = .ok (r, h')) (hr : r.rc = L8W8JWT_SUCCESS) :
    ∃ id tok hdr pay sig, r.out = some (some ⟨id, tok ++ [0]⟩) ∧ r.outLength = some tok.length ∧
      IsToken tok hdr pay sig ∧ hdr ≠ [] ∧ pay ≠ [] ∧ sig ≠ [] ∧ tok.count 46 = 2 ∧
      (∀ c ∈ tok, c = 46 ∨ ∃ i < 64, c = alphabet true i) ∧ 0 ∉ tok := by
  by_cases hv : validateEncodingParams (some p) = L8W8JWT_SUCCESS
  · have := wp_iff_forall.mp (wp_encode_any (s := s) (h := h) env p hv) r h' he
    obtain ⟨-, hdr, pay, sig, tok, id, msg, -, -, -, n1, n2, n3, e1, e2, -, -, u1, u2⟩ := this.success hr
    have hm := u1.2 (Or.inl g)
    have ht := u2.2 (Or.inl g)
    subst hm
    have hch : ∀ c ∈ tok, c = 46 ∨ ∃ i < 64, c = alphabet true i := by
      intro c hc
      rw [ht] at hc
      simp only [List.mem_append] at hc
      have hd : c ∈ str "." → c = 46 := by simp [str]
      rcases hc with (((hc | hc) | hc) | hc) | hc
      · exact Or.inr (b64_mem _ _ _ hc)
      · exact Or.inl (hd hc)
      · exact Or.inr (b64_mem _ _ _ hc)
      · exact Or.inl (hd hc)
      · exact Or.inr (b64_mem _ _ _ hc)
    refine ⟨id, tok, hdr, pay, sig, e1, e2, ht, n1, n2, n3, ?_, hch, ?_⟩
    · have c0 : ∀ d : Bytes, (b64 true d).count 46 = 0 := fun d => List.count_eq_zero.mpr (dot_not_mem_b64 d)
      rw [ht]
      simp only [List.count_append, c0]
      rfl
    · intro h0
      rcases hch 0 h0 with hx | ⟨i, hi, hx⟩
      · revert hx; decide
      · have key : ∀ i : Fin 64, (0 : UInt8) ≠ alphabet true i.val := by decide +kernel
        exact key ⟨i, hi⟩ hx
  · rw [C16_encode_invalid _ hv] at he; cases he; exact absurd hr hv

/-- The three parts of a token are determined by it, so the statements below about "the" header, payload and signature of
a token are unambiguous. -/
theorem isToken_unique (tok a b c a' b' c' : Bytes) (h1 : IsToken tok a b c) (h2 : IsToken tok a' b' c') :
    a = a' ∧ b = b' ∧ c = c' := by
  unfold IsToken at h1 h2
  rw [h1] at h2
  simp only [List.append_assoc, show str "." = [46] from rfl, List.cons_append, List.nil_append] at h2
  obtain ⟨e1, h3⟩ := split_unique 46 _ _ _ _ (dot_not_mem_b64 _) (dot_not_mem_b64 _) h2
  obtain ⟨e2, e3⟩ := split_unique 46 _ _ _ _ (dot_not_mem_b64 _) (dot_not_mem_b64 _) h3
  exact ⟨b64_inj _ _ e1, b64_inj _ _ e2, b64_inj _ _ e3⟩

example : tokenOf toy toyParams =
    some (str "eyJhbGciOiJIUzI1NiIsInR5cCI6IkpXVCJ9.e30.AAAThbrEnRvXpKVESx3XudmHgXCFVinKCZnarlaE3mI" ++ [0]) := by decide +kernel

/-- What an encoded token consists of, for readable texts and primitives that keep their size contract. -/
theorem encode_token (hc : CryptoOk env.crypto) (hok : TextsOk env p) (g : s.noGrowFail)
    (he : encode env (some p) s h = .ok (r, h')) (hr : r.rc = L8W8JWT_SUCCESS) :
    ∃ name sch id tok hdr pay sig, alg? p.alg = some (name, sch) ∧ r.out = some (some ⟨id, tok ++ [0]⟩) ∧
      r.outLength = some tok.length ∧ IsToken tok hdr pay sig ∧ HeaderIs s p name hdr ∧ PayloadIs s p pay ∧
      Emits env p (signingInput hdr pay) sig := by
  by_cases hv : validateEncodingParams (some p) = L8W8JWT_SUCCESS
  · have := wp_iff_forall.mp (wp_encode_texts (s := s) (h := h) env hc p hok (fun _ => True) hv (Or.inr fun _ => trivial)) r h' he
    obtain ⟨-, hdr, pay, sig, tok, id, msg, ⟨name, sch, ha, hh⟩, hp, hs, n1, n2, n3, e1, e2, -, -, u1, u2⟩ := this.success hr
    have hm := u1.2 (Or.inl g)
    have ht := u2.2 (Or.inl g)
    subst hm
    exact ⟨name, sch, id, tok, hdr, pay, sig, ha, e1, e2, ht, hh, hp, hs⟩
  · rw [C16_encode_invalid _ hv] at he; cases he; exact absurd hr hv

/-! ## C18 -/

/-- Different algorithms have different names. -/
theorem C18_names_distinct (a b : Int) (x : String) (u v : Scheme) (ha : alg? a = some (x, u)) (hb : alg? b = some (x, v)) : a = b := by
  rcases alg?_range a with ⟨i, rfl⟩ | ⟨h1, -⟩
  · rcases alg?_range b with ⟨j, rfl⟩ | ⟨h1, -⟩
    · have key : ∀ i j : Fin 14, (alg? (i.val : Int)).map Prod.fst = (alg? (j.val : Int)).map Prod.fst → i = j := by decide +kernel
      rw [key i j (by rw [ha, hb]; rfl)]
    · rw [h1] at hb; cases hb
  · rw [h1] at ha; cases ha

/-- C18: the header always starts with the members naming the algorithm and the type. -/
theorem C18_header_names_alg (hc : CryptoOk env.crypto) (hok : TextsOk env p) (g : s.noGrowFail)
    (he : encode env (some p) s h = .ok (r, h')) (hr : r.rc = L8W8JWT_SUCCESS) :
    ∃ name sch id tok hdr pay sig, alg? p.alg = some (name, sch) ∧ r.out = some (some ⟨id, tok ++ [0]⟩) ∧
      IsToken tok hdr pay sig ∧ (str "{" ++ plainMember "alg" name ++ str "," ++ plainMember "typ" "JWT") <+: hdr := by
  obtain ⟨name, sch, id, tok, hdr, pay, sig, ha, e1, -, ht, hh, -⟩ := encode_token hc hok g he hr
  refine ⟨name, sch, id, tok, hdr, pay, sig, ha, e1, ht, ?_⟩
  have hb : (str "{" ++ plainMember "alg" name ++ str "," ++ plainMember "typ" "JWT") <+: str "{" ++ commaSep (headerBase name) := by
    rcases alg?_range p.alg with ⟨j, hj⟩ | ⟨h1, -⟩
    · have key : ∀ j : Fin 14, (match alg? (j.val : Int) with
          | some (name, _) => (str "{" ++ plainMember "alg" name ++ str "," ++ plainMember "typ" "JWT").isPrefixOf
              (str "{" ++ commaSep (headerBase name))
          | none => false) = true := by decide +kernel
      have := key j
      rw [← hj, ha] at this
      exact List.isPrefixOf_iff_prefix.mp this
    · rw [h1] at ha; cases ha
  refine hb.trans ?_
  rcases (hh.2 (Or.inl g)).1 with e | e
  · exact ⟨_, e.symm⟩
  · exact ⟨_, e.symm⟩

/-- C18 without allocation failures: the header is exactly the intended JSON object, if and only if the count of additional
claims is zero or one of them has a key. Missing for the full statement: a non-zero count with a NULL array or NULL keys only,
for which it is false (`C18_header_false`). -/
theorem C18_header_exact_partial (hc : CryptoOk env.crypto) (hok : TextsOk env p) (g : s.good)
    (he : encode env (some p) s h = .ok (r, h')) (hr : r.rc = L8W8JWT_SUCCESS) :
    ∃ name sch id tok hdr pay sig, alg? p.alg = some (name, sch) ∧ r.out = some (some ⟨id, tok ++ [0]⟩) ∧
      IsToken tok hdr pay sig ∧
      (hdr = headerJson p name ↔ (p.headerClaimsCount = 0 ∨ extra p.headerClaims p.headerClaimsCount ≠ [])) := by
  obtain ⟨name, sch, id, tok, hdr, pay, sig, ha, e1, -, ht, hh, -⟩ := encode_token hc hok g.2 he hr
  refine ⟨name, sch, id, tok, hdr, pay, sig, ha, e1, ht, ?_⟩
  rw [(hh.2 (Or.inl g.2)).2 g.1, headerJson, commaSep_append]
  have hbne : headerBase name ≠ [] := by simp [headerBase]
  by_cases h0 : p.headerClaimsCount = 0
  · have hx : extra p.headerClaims p.headerClaimsCount = [] := by simp [extra, h0, memberTexts]
    rw [hx]
    simp [headerTail, h0, commaSep]
  · simp only [h0, false_or, headerTail, if_pos (Nat.pos_of_ne_zero h0), hbne, ne_eq, not_false_eq_true, true_and]
    by_cases hx : extra p.headerClaims p.headerClaimsCount = []
    · simp [hx, commaSep, str]
    · simp [hx]

/-- The intended header is a JSON object with these members. -/
theorem C18_headerJson_valid (name : String) (sch : Scheme) (ha : alg? p.alg = some (name, sch))
    (hv : valuesOk p.headerClaims p.headerClaimsCount) :
    JObject (headerJson p name) (headerPairs name ++ extraPairs p.headerClaims p.headerClaimsCount) := by
  have h1 : (headerPairs name).map pairText = headerBase name ∧
      ∀ kv ∈ headerPairs name, JStr kv.1 ∧ JText .value kv.2 := by
    rcases alg?_range p.alg with ⟨j, hj⟩ | ⟨h1, -⟩
    · have key : ∀ j : Fin 14, (match alg? (j.val : Int) with
          | some (name, _) => decide ((headerPairs name).map pairText = headerBase name) &&
              (headerPairs name).all fun kv => escape kv.1 == kv.1 &&
                kv.2 == str "\"" ++ escape (kv.2.drop 1).dropLast ++ str "\""
          | none => false) = true := by decide +kernel
      have := key j
      rw [← hj, ha] at this
      simp only [Bool.and_eq_true, decide_eq_true_eq, List.all_eq_true, beq_iff_eq] at this
      refine ⟨this.1, fun kv hkv => ?_⟩
      obtain ⟨a, b⟩ := this.2 kv hkv
      rw [← a, b]
      exact ⟨jStr_escape _, jtext_quoted _⟩
    · rw [h1] at ha; cases ha
  have := jobject_commaSep (headerPairs name ++ extraPairs p.headerClaims p.headerClaimsCount) (by
    intro kv hkv
    rcases List.mem_append.mp hkv with hkv | hkv
    · exact h1.2 kv hkv
    · exact extraPairs_ok _ _ hv kv hkv)
  rwa [List.map_append, h1.1, extraPairs_text] at this

/-- C18 is false as stated: a count without claims gives a trailing comma, which is not JSON. -/
theorem C18_header_false : ∃ p, TextsOk toy p ∧ tokenOf toy p =
    some (b64 true (str "{\"alg\":\"HS256\",\"typ\":\"JWT\",}") ++ str "." ++ b64 true (str "{}") ++ str "." ++
      b64 true (toySum 32 (str "secret" ++ 1 :: signingInput (str "{\"alg\":\"HS256\",\"typ\":\"JWT\",}") (str "{}"))) ++ [0]) := by
  refine ⟨{ toyParams with headerClaimsCount := 1 }, ⟨?_, ?_, ?_, ?_, ?_, ?_⟩, by decide +kernel⟩
  all_goals intro b hb; cases hb

/-! ## C20, C21 -/

/-- The separator between registered and additional claims is decided from times and lengths; this says that the decision
is right. -/
def SepOk (p : EncParams) : Prop :=
  0 < p.payloadClaimsCount →
    ((p.iat ≠ 0 ∨ p.exp ≠ 0 ∨ p.nbf ≠ 0 ∨ p.issLength ≠ 0 ∨ p.subLength ≠ 0 ∨ p.jtiLength ≠ 0 ∨ p.audLength ≠ 0) ↔
      (registered p ≠ [] ∧ extra p.payloadClaims p.payloadClaimsCount ≠ []))

theorem toU64_nonneg (t : Int) (h0 : 0 ≤ t) (h1 : t < 2 ^ 63) : toU64 t = t.natAbs := by
  unfold toU64; omega

theorem timeMember_nonneg (k : String) (t : Int) (h0 : 0 ≤ t) (h1 : t < 2 ^ 63) :
    timeMember timeText k t = timeMember intText k t := by
  unfold timeMember timeText intText
  rw [toU64_nonneg t h0 h1]
  simp [show ¬ t < 0 by omega]

/-- The times are representable and not negative. -/
def TimesOk (p : EncParams) : Prop :=
  0 ≤ p.iat ∧ p.iat < 2 ^ 63 ∧ 0 ≤ p.nbf ∧ p.nbf < 2 ^ 63 ∧ 0 ≤ p.exp ∧ p.exp < 2 ^ 63

theorem registered_nonneg (ht : TimesOk p) : registeredWith timeText p = registered p := by
  obtain ⟨a, b, c, d, e, f⟩ := ht
  simp only [registered, registeredWith, timeMember_nonneg _ _ a b, timeMember_nonneg _ _ c d, timeMember_nonneg _ _ e f]

theorem payloadForm_iff (ht : TimesOk p) :
    payloadForm p (registeredWith timeText p) (extra p.payloadClaims p.payloadClaimsCount) = payloadJson p ↔ SepOk p := by
  rw [registered_nonneg ht, payloadForm, payloadJson, commaSep_append]
  unfold SepOk
  by_cases h0 : 0 < p.payloadClaimsCount
  · simp only [h0, if_true, forall_const]
    change _ ↔ (sep p ↔ _)
    generalize extra p.payloadClaims p.payloadClaimsCount = e
    generalize registered p = r
    by_cases hs : sep p <;> by_cases hx : r ≠ [] ∧ e ≠ []
    · simp [hs, hx]
    · rw [if_pos hs, if_neg hx]
      simp only [hs, hx, iff_false, not_true]
      intro he
      have := congrArg List.length he
      simp [str] at this
    · rw [if_neg hs, if_pos hx]
      refine ⟨fun he => ?_, fun h => absurd (h.mpr hx) hs⟩
      exfalso
      have := congrArg List.length he
      simp [str] at this
    · rw [if_neg hs, if_neg hx]; simp [hs, hx]
  · have hx : extra p.payloadClaims p.payloadClaimsCount = [] := by
      simp [extra, show p.payloadClaimsCount = 0 by omega, memberTexts]
    simp [h0, hx, commaSep]

/-- C20: without allocation failures the payload is exactly the intended JSON text if and only if the separator decision is
right. Missing for the full statement: parameter structs with `¬ SepOk`, for which it is false (`C20_payload_false`), and
negative times (`C21_times_false`). -/
theorem C20_payload_partial (hc : CryptoOk env.crypto) (hok : TextsOk env p) (ht : TimesOk p) (g : s.good)
    (he : encode env (some p) s h = .ok (r, h')) (hr : r.rc = L8W8JWT_SUCCESS) :
    ∃ id tok hdr pay sig, r.out = some (some ⟨id, tok ++ [0]⟩) ∧ IsToken tok hdr pay sig ∧ (pay = payloadJson p ↔ SepOk p) := by
  obtain ⟨name, sch, id, tok, hdr, pay, sig, ha, e1, -, htk, -, hp, -⟩ := encode_token hc hok g.2 he hr
  exact ⟨id, tok, hdr, pay, sig, e1, htk, by rw [(hp.2 (Or.inl g.2)).2 g.1]; exact payloadForm_iff ht⟩

/-- C20: the intended payload is a JSON object whose members are the registered claims followed by the additional ones. -/
theorem C20_payloadJson_valid (hv : valuesOk p.payloadClaims p.payloadClaimsCount) :
    JObject (payloadJson p) (registeredPairs p ++ extraPairs p.payloadClaims p.payloadClaimsCount) := by
  have := jobject_commaSep (registeredPairs p ++ extraPairs p.payloadClaims p.payloadClaimsCount) (by
    intro kv hkv
    rcases List.mem_append.mp hkv with hkv | hkv
    · exact registeredPairs_ok p kv hkv
    · exact extraPairs_ok _ _ hv kv hkv)
  rwa [List.map_append, registeredPairs_text, extraPairs_text] at this

/-- A condition that callers can check: lengths are given explicitly and a claims array contains a key. -/
theorem C20_sepOk_of_explicit (h1 : p.iss = none ↔ p.issLength = 0) (h2 : p.sub = none ↔ p.subLength = 0)
    (h3 : p.aud = none ↔ p.audLength = 0) (h4 : p.jti = none ↔ p.jtiLength = 0)
    (h5 : 0 < p.payloadClaimsCount → extra p.payloadClaims p.payloadClaimsCount ≠ []) : SepOk p := by
  intro h0
  have hs : ∀ (k : String) (v : Ptr) (n : Nat), (v = none ↔ n = 0) → (strMember k v n = [] ↔ n = 0) := by
    intro k v n hn
    rw [← hn]
    cases v <;> simp [strMember]
  have ht : ∀ (k : String) (t : Int), timeMember intText k t = [] ↔ t = 0 := by
    intro k t; unfold timeMember; split <;> simp [*]
  simp only [h5 h0, ne_eq, not_false_eq_true, and_true, registered, registeredWith, List.append_eq_nil_iff, ht,
    hs _ _ _ h1, hs _ _ _ h2, hs _ _ _ h3, hs _ _ _ h4]
  by_cases p.iat = 0 <;> by_cases p.nbf = 0 <;> by_cases p.exp = 0 <;> by_cases p.issLength = 0 <;>
    by_cases p.subLength = 0 <;> by_cases p.audLength = 0 <;> by_cases p.jtiLength = 0 <;> simp [*]

/-- A parameter struct following the documentation (`iss_length` 0: use `strlen`) with one additional claim. -/
def badSep : EncParams :=
  { toyParams with iss := cs "x", payloadClaims := some [exClaim "a" "1" L8W8JWT_CLAIM_TYPE_INTEGER], payloadClaimsCount := 1 }

/-- C20 is false: with an implicit length the separating comma is missing and the payload is not JSON. -/
theorem C20_payload_false : TextsOk toy badSep ∧ valuesOk badSep.payloadClaims badSep.payloadClaimsCount ∧
    (∃ hdr sig tok, tokenOf toy badSep = some (tok ++ [0]) ∧ IsToken tok hdr (str "{\"iss\":\"x\"\"a\":1}") sig) ∧
    ∀ l, ¬ JObject (str "{\"iss\":\"x\"\"a\":1}") l := by
  refine ⟨⟨?_, ?_, ?_, ?_, ?_, ?_⟩, ?_, ?_, ?_⟩
  · intro b hb; cases hb; exact ⟨by simp [argOk, badSep, toyParams], by decide⟩
  · intro b hb; cases hb
  · intro b hb; cases hb
  · intro b hb; cases hb
  · intro b hb; cases hb
  · intro b hb
    cases hb
    refine ⟨by decide, ?_, ?_⟩
    · intro c hc
      simp only [badSep, List.take_succ_cons, List.take_zero, List.mem_singleton] at hc
      subst hc
      exact Or.inr ⟨_, rfl, by simp [argOk, exClaim], by simp [argOk, exClaim]⟩
    · intro _ c hc m hm
      simp only [badSep, List.take_succ_cons, List.take_zero, List.mem_singleton] at hc
      subst hc
      cases hm
      exact ⟨by decide, by decide⟩
  · intro c hc m hm _
    simp only [badSep, Option.getD_some, List.take_succ_cons, List.take_zero, List.mem_singleton] at hc
    subst hc
    cases hm
    have : arg (str "1" ++ [0]) 0 = natText 1 := by simp [natText]; decide
    show JText .value (arg (str "1" ++ [0]) 0)
    rw [this]
    exact .num (jnum_natText 1 [] (Or.inl rfl))
  · exact ⟨str "{\"alg\":\"HS256\",\"typ\":\"JWT\"}", toySum 32 (str "secret" ++ 1 :: signingInput
      (str "{\"alg\":\"HS256\",\"typ\":\"JWT\"}") (str "{\"iss\":\"x\"\"a\":1}")), _, by decide +kernel, rfl⟩
  · intro l hl
    have := jobject_scan hl
    revert this
    unfold Scan.done
    decide +kernel

/-- With an explicit length the same claims give valid JSON. -/
example : (tokenOf toy { badSep with issLength := 1 }).map (fun t => (b64 true (str "{\"iss\":\"x\",\"a\":1}")).isPrefixOf (t.drop 37)) =
    some true := by decide +kernel

theorem natValue_natText (n : Nat) : natValue (natText n) = n := by
  fun_induction natText n with
  | case1 n h => simp [natValue, UInt8.toNat_ofNat']; omega
  | case2 n h ih =>
    unfold natValue at *
    rw [List.foldl_append, ih]
    simp [UInt8.toNat_ofNat']; omega

/-- Printing of numbers: for positive numbers, digits without leading zero that denote the number. -/
theorem C21_intText (t : Int) (h0 : 0 < t) : JDigits (intText t) ∧ (intText t).head? ≠ some 48 ∧ (natValue (intText t) : Int) = t := by
  have e : intText t = natText t.natAbs := by simp [intText, show ¬ t < 0 by omega]
  rw [e]
  refine ⟨⟨?_, fun c hc => ?_⟩, natText_head _ (by omega), by rw [natValue_natText]; omega⟩
  · intro hx
    have := natText_head t.natAbs (by omega)
    have h1 := natText_length t.natAbs (t.natAbs + 1) (by omega) (Nat.lt_trans (Nat.lt_succ_self _) (Nat.lt_pow_self (by omega)))
    rw [hx] at h1; simp at h1
  · have := natText_digit _ c hc
    rw [UInt8.le_iff_toNat_le, UInt8.le_iff_toNat_le]
    exact this

/-- C21: the payload starts with the registered claims, in which a time is absent exactly if it is zero and is otherwise
printed in decimal (`timeMember`, `C21_intText`). Missing for the full statement: negative times, for which it is false
(`C21_times_false`). -/
theorem C21_times_partial (hc : CryptoOk env.crypto) (hok : TextsOk env p) (ht : TimesOk p) (g : s.good)
    (he : encode env (some p) s h = .ok (r, h')) (hr : r.rc = L8W8JWT_SUCCESS) :
    ∃ id tok hdr pay sig, r.out = some (some ⟨id, tok ++ [0]⟩) ∧ IsToken tok hdr pay sig ∧
      str "{" ++ commaSep (timeMember intText "iat" p.iat ++ timeMember intText "nbf" p.nbf ++ timeMember intText "exp" p.exp ++
        strMember "sub" p.sub p.subLength ++ strMember "iss" p.iss p.issLength ++ strMember "aud" p.aud p.audLength ++
        strMember "jti" p.jti p.jtiLength) <+: pay := by
  obtain ⟨name, sch, id, tok, hdr, pay, sig, ha, e1, -, htk, -, hp, -⟩ := encode_token hc hok g.2 he hr
  refine ⟨id, tok, hdr, pay, sig, e1, htk, ?_⟩
  rw [(hp.2 (Or.inl g.2)).2 g.1, registered_nonneg ht, payloadForm, List.append_assoc (str "{" ++ _)]
  exact ⟨_, rfl⟩

example : (tokenOf toy { toyParams with iat := 1700000000, exp := 1700000600 }).map
    (fun t => (b64 true (str "{\"iat\":1700000000,\"exp\":1700000600}")).isPrefixOf (t.drop 37)) = some true := by decide +kernel

/-- C21 is false for negative times: they are printed as unsigned numbers. -/
theorem C21_times_false : (tokenOf toy { toyParams with exp := -1 }).map
    (fun t => (b64 true (str "{\"exp\":18446744073709551615}")).isPrefixOf (t.drop 37)) = some true := by decide +kernel

/-! ## C22, C23, C51 -/

/-- C23: signing succeeded, so the key is suitable; whatever the texts and whatever allocations failed. -/
theorem C23_key_suits (hc : CryptoOk env.crypto) (he : encode env (some p) s h = .ok (r, h')) (hr : r.rc = L8W8JWT_SUCCESS) :
    KeySuits env p := by
  by_cases hv : validateEncodingParams (some p) = L8W8JWT_SUCCESS
  · have := wp_iff_forall.mp (wp_encode_sig (s := s) (h := h) env hc p hv) r h' he
    obtain ⟨-, hdr, pay, sig, tok, id, msg, -, -, hs, -⟩ := this.success hr
    exact hs.1
  · rw [C16_encode_invalid _ hv] at he; cases he; exact absurd hr hv

/-- C23, with the requirements spelled out. -/
theorem C23_requirements (hk : KeySuits env p) :
    (3 ≤ p.alg ∧ p.alg ≤ 8 → ∃ pk, env.crypto.parseKey (pemKey (keyBytes p)) (password p) = some pk ∧
      (env.crypto.canRsa pk = true ∨ env.crypto.canPss pk = true) ∧ 2048 ≤ env.crypto.bitlen pk) ∧
    (9 ≤ p.alg ∧ p.alg ≤ 12 → ∃ pk, env.crypto.parseKey (pemKey (keyBytes p)) (password p) = some pk ∧
      env.crypto.canEcdsa pk = true ∧ env.crypto.grpId pk =
        (if p.alg = 9 then .secp256r1 else if p.alg = 10 then .secp384r1 else if p.alg = 11 then .secp521r1 else .secp256k1)) ∧
    (p.alg = 13 → env.eddsa = true ∧ (((keyBytes p).length = 128 ∧ (keyBytes p).getLast? ≠ some 0) ∨ ((keyBytes p).length = 129 ∧ (keyBytes p).getLast? = some 0))) := by
  rcases alg?_range p.alg with ⟨⟨j, hj⟩, hje⟩ | ⟨h1, -⟩
  · simp only at hje
    unfold KeySuits at hk
    rw [hje] at hk ⊢
    match j, hj with
    | 0, _ => simp
    | 1, _ => simp
    | 2, _ => simp
    | 3, _ => obtain ⟨pk, a, b, c⟩ := hk; simp; exact ⟨pk, a, Or.inl b, c⟩
    | 4, _ => obtain ⟨pk, a, b, c⟩ := hk; simp; exact ⟨pk, a, Or.inl b, c⟩
    | 5, _ => obtain ⟨pk, a, b, c⟩ := hk; simp; exact ⟨pk, a, Or.inl b, c⟩
    | 6, _ => obtain ⟨pk, a, b, c⟩ := hk; simp; exact ⟨pk, a, Or.inr b, c⟩
    | 7, _ => obtain ⟨pk, a, b, c⟩ := hk; simp; exact ⟨pk, a, Or.inr b, c⟩
    | 8, _ => obtain ⟨pk, a, b, c⟩ := hk; simp; exact ⟨pk, a, Or.inr b, c⟩
    | 9, _ => obtain ⟨pk, a, b, c, d⟩ := hk; simp; exact ⟨pk, a, b, c⟩
    | 10, _ => obtain ⟨pk, a, b, c, d⟩ := hk; simp; exact ⟨pk, a, b, c⟩
    | 11, _ => obtain ⟨pk, a, b, c, d⟩ := hk; simp; exact ⟨pk, a, b, c⟩
    | 12, _ => obtain ⟨pk, a, b, c, d⟩ := hk; simp; exact ⟨pk, a, b, c⟩
    | 13, _ => exact ⟨by simp, by simp, fun _ => hk⟩
  · unfold KeySuits at hk; rw [h1] at hk; exact hk.elim

/-- Weak RSA key, wrong curve and non-PEM key are refused; suitable keys are accepted. -/
example :
    let prm (a : Int) (k : String) : EncParams :=
      { toyParams with alg := a, secretKey := some (str k ++ [0]), secretKeyLength := (str k).length }
    let enc (a : Int) (k : String) := (encode toy (some (prm a k)) calm heap0).map (·.1.rc)
    enc 3 "W" = .ok L8W8JWT_WRONG_KEY_TYPE ∧ enc 9 "K" = .ok L8W8JWT_WRONG_KEY_TYPE ∧ enc 3 "?" = .ok L8W8JWT_KEY_PARSE_FAILURE ∧
    enc 3 "R" = .ok L8W8JWT_SUCCESS ∧ enc 9 "P" = .ok L8W8JWT_SUCCESS ∧ enc 6 "R" = .ok L8W8JWT_SUCCESS := by decide +kernel

/-- The selected algorithm is RSA-PSS and the modulus is not a whole number of bytes. -/
def OddPss (env : Env) (p : EncParams) : Prop :=
  ∃ name md pk, alg? p.alg = some (name, .pss md) ∧ env.crypto.parseKey (pemKey (keyBytes p)) (password p) = some pk ∧
    env.crypto.bitlen pk % 8 ≠ 0

theorem emits_signs {msg sig : Bytes} (hs : Emits env p msg sig) (hn : ¬ OddPss env p) : Signs env p msg sig := by
  obtain ⟨-, -, hs⟩ := hs
  unfold Signs
  cases ha : alg? p.alg with
  | none => rw [ha] at hs; simp only [Signs, ha] at hs
  | some a =>
    obtain ⟨name, sch⟩ := a
    cases sch with
    | pss md =>
      rw [ha] at hs
      obtain ⟨pk, hash, full, e1, e2, e3, e4, e5⟩ := hs
      refine ⟨pk, hash, e1, e2, ?_⟩
      have h8 : env.crypto.bitlen pk % 8 = 0 := by
        by_cases h8 : env.crypto.bitlen pk % 8 = 0
        · exact h8
        · exact absurd ⟨name, md, pk, ha, e1, h8⟩ hn
      rw [e3, e4, List.take_of_length_le (by omega)]
    | hmac md => rw [ha] at hs; simpa only [Signs, ha] using hs
    | rsa md => rw [ha] at hs; simpa only [Signs, ha] using hs
    | ecdsa md c n b => rw [ha] at hs; simpa only [Signs, ha] using hs
    | eddsa => rw [ha] at hs; simpa only [Signs, ha] using hs.2

/-- C22: the signature segment is the signature, under the selected algorithm and the given key, of the bytes before the
second dot. Missing for the full statement: RSA-PSS keys whose bit length is not a multiple of 8, for which it is false
(`C51_pss_false`). -/
theorem C22_signature_partial (hc : CryptoOk env.crypto) (hok : TextsOk env p) (g : s.noGrowFail) (hn : ¬ OddPss env p)
    (he : encode env (some p) s h = .ok (r, h')) (hr : r.rc = L8W8JWT_SUCCESS) :
    ∃ id tok hdr pay sig, r.out = some (some ⟨id, tok ++ [0]⟩) ∧ IsToken tok hdr pay sig ∧
      tok = signingInput hdr pay ++ str "." ++ b64 true sig ∧ Signs env p (signingInput hdr pay) sig := by
  obtain ⟨name, sch, id, tok, hdr, pay, sig, ha, e1, -, htk, -, -, hs⟩ := encode_token hc hok g he hr
  exact ⟨id, tok, hdr, pay, sig, e1, htk, htk, emits_signs hs hn⟩

example : Signs toy toyParams (signingInput (str "{\"alg\":\"HS256\",\"typ\":\"JWT\"}") (str "{}"))
    (toySum 32 (str "secret" ++ 1 :: str "eyJhbGciOiJIUzI1NiIsInR5cCI6IkpXVCJ9.e30")) := by
  show toyCrypto.hmac _ _ _ = _
  decide +kernel

/-- C51: for RSA-PSS the emitted signature is the complete signature if the bit length of the modulus is a multiple of 8; in
general it is its first `bitlen / 8` bytes. Missing for the full statement: other bit lengths, for which it is false. -/
theorem C51_pss_partial (hc : CryptoOk env.crypto) (hok : TextsOk env p) (g : s.noGrowFail) (name : String) (md : Md)
    (ha : alg? p.alg = some (name, .pss md)) (he : encode env (some p) s h = .ok (r, h')) (hr : r.rc = L8W8JWT_SUCCESS) :
    ∃ id tok hdr pay sig pk hash full, r.out = some (some ⟨id, tok ++ [0]⟩) ∧ IsToken tok hdr pay sig ∧
      env.crypto.parseKey (pemKey (keyBytes p)) (password p) = some pk ∧ env.crypto.md md (signingInput hdr pay) = some hash ∧
      env.crypto.pssSign pk md hash = some full ∧ full.length = (env.crypto.bitlen pk + 7) / 8 ∧
      sig = full.take (env.crypto.bitlen pk / 8) ∧ (sig = full ↔ env.crypto.bitlen pk % 8 = 0) := by
  obtain ⟨name', sch, id, tok, hdr, pay, sig, ha', e1, -, htk, -, -, hs⟩ := encode_token hc hok g he hr
  obtain ⟨-, -, hs⟩ := hs
  rw [ha] at hs
  obtain ⟨pk, hash, full, a1, a2, a3, a4, a5⟩ := hs
  refine ⟨id, tok, hdr, pay, sig, pk, hash, full, e1, htk, a1, a2, a3, a5, a4, ?_⟩
  rw [a4]
  constructor
  · intro e
    have := congrArg List.length e
    rw [List.length_take] at this
    omega
  · intro e
    exact List.take_of_length_le (by omega)

/-- C51 (and C22) are false: with a 2049 bit modulus the last byte of the signature is missing. -/
theorem C51_pss_false : ∃ p tok hdr pay sig full, alg? p.alg = some ("PS256", .pss .sha256) ∧ tokenOf toy p = some (tok ++ [0]) ∧
    IsToken tok hdr pay sig ∧ (∃ hash, toyCrypto.md .sha256 (signingInput hdr pay) = some hash ∧
      toyCrypto.pssSign ⟨true, 2049, .other 0⟩ .sha256 hash = some full) ∧
    toyCrypto.parseKey (pemKey (keyBytes p)) (password p) = some ⟨true, 2049, .other 0⟩ ∧
    full.length = 257 ∧ sig = full.take 256 := by
  refine ⟨{ toyParams with alg := 6, secretKey := some (str "S"), secretKeyLength := 1 }, _,
    str "{\"alg\":\"PS256\",\"typ\":\"JWT\"}", str "{}",
    (toySum 257 (toySum 32 (signingInput (str "{\"alg\":\"PS256\",\"typ\":\"JWT\"}") (str "{}")))).take 256,
    toySum 257 (toySum 32 (signingInput (str "{\"alg\":\"PS256\",\"typ\":\"JWT\"}") (str "{}"))),
    by decide, ?_, rfl, ⟨_, rfl, rfl⟩, rfl, be_length _ _, rfl⟩
  decide +kernel

end L8w8jwt
