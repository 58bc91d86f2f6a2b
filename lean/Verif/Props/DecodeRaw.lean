import Verif.Props.DecodeSig
/-!
# Properties of the decode functions: agreement, raw decoding, key handling, memory
-/

namespace L8w8jwt
open Spec

variable {s : Sched} {h h' h1 h2 : Heap} {env : Env} {p : DecParams} {tok : Bytes} {v : VRes}

/-! ## C36 -/

/-- C36: `l8w8jwt_decode` and `l8w8jwt_decode_raw` return the same code and the same validation result. For all parameters
(including invalid ones), tokens, environments and schedules of allocation failures. -/
theorem C36_same_verdict {q : Option DecParams} {b c : Bool} {x : RawArgs} {r : DecOut} {r' : RawOut} (hbc : b = true ∨ c = false)
    (hx : x.bad = false) (he : decode env q false b c s h = .ok (r, h1)) (he' : decodeRaw env q false x s h = .ok (r', h2)) :
    r.rc = r'.rc ∧ r.validation = r'.validation := by
  have hnb : (!b && c) = false := by rcases hbc with rfl | rfl <;> simp
  cases q with
  | none => cases he; cases he'; exact ⟨rfl, rfl⟩
  | some p =>
    by_cases hv : validateDecodingParams env (some p) = L8W8JWT_SUCCESS
    · rcases decode_returns he with ⟨-, -, -, hbad⟩ | ⟨p1, st, g1, hp, -, -, -, hb, rfl⟩
      · exfalso
        rcases hbad with hn | hn | hn
        · exact hn hv
        · cases hn
        · rcases hbc with h1 | h1 <;> rw [h1] at hn <;> simp at hn
      · cases hp
        have : r' = rawOut x st := by
          rcases decodeRaw_returns he' with ⟨-, -, -, hbad⟩ | ⟨p', st', g2, hp, -, -, -, hb', e⟩
          · exfalso
            rcases hbad with hn | hn | hn
            · exact hn hv
            · cases hn
            · rw [hx] at hn; cases hn
          · cases hp
            rw [hb] at hb'
            cases hb'
            exact e
        subst this
        unfold decOut
        split <;> exact ⟨rfl, rfl⟩
    · have e1 : decode env (some p) false b c s h = .ok ({ rc := validateDecodingParams env (some p) }, h) := by
        simp only [decode, hnb, Bool.false_eq_true, if_false, hv, ne_eq, not_false_eq_true, if_true]; rfl
      have e2 : decodeRaw env (some p) false x s h = .ok ({ rc := validateDecodingParams env (some p) }, h) := by
        simp only [decodeRaw, hx, Bool.or_self, Bool.false_eq_true, if_false, hv, ne_eq, not_false_eq_true, if_true]; rfl
      rw [e1] at he; rw [e2] at he'
      cases he; cases he'; exact ⟨rfl, rfl⟩

theorem wp_tag {α : Type} {m : M α} {Q : α → Heap → Prop} (hw : wp m s h Q (fun _ => True)) : wp m s h Q (fun e => m s h = .error e) := by
  unfold wp at hw ⊢
  cases hm : m s h with
  | ok x => rw [hm] at hw; exact hw
  | error e => rfl

/-- C36: one is undefined exactly when the other is (for NUL-terminated tokens). -/
theorem C36_same_definedness (hc : CryptoOk env.crypto) (hv : validateDecodingParams env (some p) = L8W8JWT_SUCCESS)
    (ht : TokenMem p tok) {b c : Bool} {x : RawArgs} (hbc : b = true ∨ c = false) (hx : x.bad = false) :
    (∃ e, decode env (some p) false b c s h = .error e) ↔ ∃ e, decodeRaw env (some p) false x s h = .error e := by
  have hb := wp_tag (wp_decodeBody (s := s) (h := h) hc hv ht (fun _ => True) (Or.inr fun _ => trivial))
  have w1 := wp_decode_of_body hv b c hbc _ hb
  have w2 := wp_decodeRaw_of_body hv x hx _ hb
  have hnb : (!b && c) = false := by rcases hbc with rfl | rfl <;> simp
  have d1 : ∀ e, decodeBody env p s h = .error e → decode env (some p) false b c s h = .error e := by
    intro e he
    unfold decode
    simp only [hnb, Bool.false_eq_true, if_false, hv, ne_eq, not_true_eq_false, run_bind, he]
  have d2 : ∀ e, decodeBody env p s h = .error e → decodeRaw env (some p) false x s h = .error e := by
    intro e he
    unfold decodeRaw
    simp only [hx, Bool.or_self, Bool.false_eq_true, if_false, hv, ne_eq, not_true_eq_false, run_bind, decodeRawBody_eq, he]
  constructor
  · rintro ⟨e, he⟩
    unfold wp at w1
    rw [he] at w1
    exact ⟨e, d2 e w1⟩
  · rintro ⟨e, he⟩
    unfold wp at w2
    rw [he] at w2
    exact ⟨e, d1 e w2⟩

/-- The caller was given a buffer that starts with the decoding of the base64url text, and its length. -/
def Holds (o : Option (Ptr × Nat)) (text : Bytes) : Prop :=
  ∃ id mem d, b64Decode true text = some d ∧ o = some (some ⟨id, mem⟩, d.length) ∧ mem.take d.length = d

theorem Seg.holds {q : Ptr} {n : Nat} {text : Bytes} (hs : Seg q n text) : Holds (given false q n) text := by
  obtain ⟨id, d, rfl, hd, rfl⟩ := hs
  exact ⟨id, segBuf text, d, hd, rfl, by simp [segBuf, hd, padTo]⟩

theorem Seg.congr {q q' : Ptr} {n n' : Nat} {text : Bytes} (hs : Seg q n text) (hs' : Seg q' n' text) :
    q.bytes = q'.bytes ∧ n = n' := by
  obtain ⟨id, d, rfl, hd, rfl⟩ := hs
  obtain ⟨id', d', rfl, hd', rfl⟩ := hs'
  rw [hd] at hd'
  cases hd'
  exact ⟨rfl, rfl⟩

theorem Outcome.info {st : DecState} (ho : Outcome env s p tok st) : (st.rc = L8W8JWT_OUT_OF_MEM ∧ st.segs = { rc := 0 }) ∨ SegInfo s p.alg tok st.segs := by
  cases ho with
  | oom hx => exact Or.inl ⟨rfl, rfl⟩
  | segs hi => exact Or.inr hi
  | verify hi => exact Or.inr hi
  | claims hi => exact Or.inr hi
  | done hi => exact Or.inr hi

theorem decodeNv_returns {x : RawArgs} {r : RawOut} (ht : TokenMem p tok) (he : decodeRawNoValidation env (some p) x s h = .ok (r, h'))
    (hr : r.rc = L8W8JWT_SUCCESS) : ∃ sg, SegInfo s p.alg tok sg ∧ r = rawNvOut x sg ∧ sg.rc = L8W8JWT_SUCCESS := by
  by_cases hx : ((x.header && x.payload && x.signature) || x.bad) = true
  · simp only [decodeRawNoValidation, if_pos hx] at he
    cases he; exact absurd hr (by decide)
  by_cases hv : validateDecodingParams env (some p) = L8W8JWT_SUCCESS
  · simp only [Bool.or_eq_true, not_or] at hx
    obtain ⟨⟨sg, hi, rfl⟩, -⟩ := wp_iff_forall.mp (wp_decodeRawNv (s := s) (h := h) hv ht x (by simpa using hx.2)
      (Bool.eq_false_iff.mpr hx.1) (fun _ => True)) _ _ he
    exact ⟨sg, hi, rfl, hr⟩
  · simp only [decodeRawNoValidation, if_neg hx, hv, ne_eq, not_false_eq_true, if_true] at he
    cases he; exact absurd hr hv

/-- The two answers consist of the same bytes. -/
def SameBytes (o o' : Option (Ptr × Nat)) : Prop :=
  o.map (fun x => (x.1.bytes, x.2)) = o'.map (fun x => (x.1.bytes, x.2))

theorem segInfo_same {sg sg' : Segs} {s' : Sched} (hi : SegInfo s p.alg tok sg) (hi' : SegInfo s' p.alg tok sg')
    (hr : sg.rc = L8W8JWT_SUCCESS) (hr' : sg'.rc = L8W8JWT_SUCCESS) :
    (sg.header.bytes = sg'.header.bytes ∧ sg.headerLength = sg'.headerLength) ∧
    (sg.payload.bytes = sg'.payload.bytes ∧ sg.payloadLength = sg'.payloadLength) ∧
    (sg.signature.bytes = sg'.signature.bytes ∧ sg.signatureLength = sg'.signatureLength) := by
  have nodot : ∀ (sx : Sched) (sg : Segs), SegInfo sx p.alg tok sg → sg.rc = L8W8JWT_SUCCESS → 46 ∈ tok := by
    intro sx sg hi hr
    rcases hi.code with h | h
    · rcases h with ⟨-, h⟩ | ⟨a, b, h2p, -⟩ | ⟨a, b, c, h3p, -⟩
      · rw [h] at hr; exact absurd hr (by decide)
      · rw [h2p.1]; simp
      · rw [h3p.1]; simp
    · rw [h.1] at hr; exact absurd hr (by decide)
  have hd := nodot s sg hi hr
  rcases hi.parts with ⟨hn, -⟩ | ⟨a, b, h2, -, -, e1, e2, hs⟩ | ⟨a, b, c, h3, -, -, -, hs⟩
  · exact absurd hd hn
  · obtain ⟨-, s1, s2⟩ := hs hr
    rcases hi'.parts with ⟨hn, -⟩ | ⟨a', b', h2', -, -, e1', e2', hs'⟩ | ⟨a', b', c', h3', -, -, -, hs'⟩
    · exact absurd hd hn
    · obtain ⟨-, s1', s2'⟩ := hs' hr'
      obtain ⟨rfl, rfl⟩ := two_unique h2 h2'
      exact ⟨s1.congr s1', s2.congr s2', by rw [e1, e1'], by rw [e2, e2']⟩
    · exact (two_not_three h2 h3').elim
  · obtain ⟨s1, s2, s3⟩ := hs hr
    rcases hi'.parts with ⟨hn, -⟩ | ⟨a', b', h2', -, -, e1', e2', hs'⟩ | ⟨a', b', c', h3', -, -, -, hs'⟩
    · exact absurd hd hn
    · exact (two_not_three h2' h3).elim
    · obtain ⟨s1', s2', s3'⟩ := hs' hr'
      obtain ⟨rfl, rfl, rfl⟩ := three_unique h3 h3'
      exact ⟨s1.congr s1', s2.congr s2', s3.congr s3'⟩

theorem sameBytes_given (b : Bool) {q q' : Ptr} {n n' : Nat} (hq : q.bytes = q'.bytes ∧ n = n') : SameBytes (given b q n) (given b q' n') := by
  unfold SameBytes given
  cases b with
  | true => rfl
  | false => simp [hq.1, hq.2]

theorem SegCode_unique {alg : Int} {rc rc' : Nat} (h1 : SegCode alg tok rc) (h2 : SegCode alg tok rc') : rc = rc' := by
  rcases h1 with ⟨hd, rfl⟩ | ⟨a, b, p1, h1⟩ | ⟨a, b, c, p1, h1⟩
  · rcases h2 with ⟨-, rfl⟩ | ⟨a, b, p1, -⟩ | ⟨a, b, c, p1, -⟩
    · rfl
    · exact absurd (by rw [p1.1]; simp) hd
    · exact absurd (by rw [p1.1]; simp) hd
  · rcases h2 with ⟨hd, -⟩ | ⟨a', b', p2, h2⟩ | ⟨a', b', c', p2, -⟩
    · exact absurd (by rw [p1.1]; simp) hd
    · obtain ⟨rfl, rfl⟩ := two_unique p1 p2
      rcases h1 with ⟨x1, rfl⟩ | ⟨x1, y1, rfl⟩ | ⟨x1, y1, z1, rfl⟩ | ⟨x1, y1, z1, rfl⟩ <;>
        rcases h2 with ⟨x2, rfl⟩ | ⟨x2, y2, rfl⟩ | ⟨x2, y2, z2, rfl⟩ | ⟨x2, y2, z2, rfl⟩ <;> first | rfl | contradiction
    · exact (two_not_three p1 p2).elim
  · rcases h2 with ⟨hd, -⟩ | ⟨a', b', p2, h2⟩ | ⟨a', b', c', p2, h2⟩
    · exact absurd (by rw [p1.1]; simp) hd
    · exact (two_not_three p2 p1).elim
    · obtain ⟨rfl, rfl, rfl⟩ := three_unique p1 p2
      rcases h1 with ⟨x1, rfl⟩ | ⟨x1, y1, z1, rfl⟩ <;> rcases h2 with ⟨x2, rfl⟩ | ⟨x2, y2, z2, rfl⟩
      · rfl
      · rcases x1 with x1 | x1 | x1 <;> contradiction
      · rcases x2 with x2 | x2 | x2 <;> contradiction
      · rfl

theorem SegInfo.segCode {sg : Segs} (hi : SegInfo s p.alg tok sg) (hr : sg.rc = L8W8JWT_SUCCESS) :
    SegCode p.alg tok L8W8JWT_SUCCESS := by
  rcases hi.code with h | h
  · rwa [hr] at h
  · rw [h.1] at hr; exact absurd hr (by decide)

/-- C36: if `l8w8jwt_decode_raw_no_validation` succeeds on a token, `l8w8jwt_decode_raw` hands out the same bytes, whatever its
own result (without allocation failures in the latter). -/
theorem C36_raw_bytes (hc : CryptoOk env.crypto) (ht : TokenMem p tok) (g : s.noAllocFail) {x : RawArgs} {r r' : RawOut} {s' : Sched} {k k' : Heap}
    (he : decodeRaw env (some p) false x s h = .ok (r, h1)) (he' : decodeRawNoValidation env (some p) x s' k = .ok (r', k'))
    (hr' : r'.rc = L8W8JWT_SUCCESS) (hv : validateDecodingParams env (some p) = L8W8JWT_SUCCESS) (hx : x.bad = false) :
    SameBytes r.header r'.header ∧ SameBytes r.payload r'.payload ∧ SameBytes r.signature r'.signature := by
  obtain ⟨sg', hi', rfl, hsr'⟩ := decodeNv_returns ht he' hr'
  rcases decodeRaw_returns he with ⟨-, -, -, hbad⟩ | ⟨p1, st, g2, hp, -, -, -, hb, rfl⟩
  · exfalso
    rcases hbad with hn | hn | hn
    · exact hn hv
    · cases hn
    · rw [hx] at hn; cases hn
  cases hp
  have ho := outcome_of hc hv ht hb
  have hi : SegInfo s p.alg tok st.segs := by
    cases ho with
    | oom hx => exact absurd g hx
    | segs hi => exact hi
    | verify hi => exact hi
    | claims hi => exact hi
    | done hi => exact hi
  have hr : st.segs.rc = L8W8JWT_SUCCESS := by
    rcases hi.code with h | h
    · exact SegCode_unique h (hi'.segCode hsr')
    · exact absurd g h.2
  obtain ⟨a1, a2, a3⟩ := segInfo_same hi hi' hr hsr'
  exact ⟨sameBytes_given _ a1, sameBytes_given _ a2, sameBytes_given _ a3⟩

/-- C36: an error of `l8w8jwt_decode_raw_no_validation` is the error of `l8w8jwt_decode_raw` (without allocation failures). -/
theorem C36_raw_errors (hc : CryptoOk env.crypto) (ht : TokenMem p tok) (g : s.noAllocFail) {x : RawArgs} {r r' : RawOut} {s' : Sched} {k k' : Heap}
    (g' : s'.noAllocFail) (hv : validateDecodingParams env (some p) = L8W8JWT_SUCCESS) (hx : x.bad = false)
    (hn : (x.header && x.payload && x.signature) = false)
    (he : decodeRaw env (some p) false x s h = .ok (r, h1)) (he' : decodeRawNoValidation env (some p) x s' k = .ok (r', k'))
    (hr' : r'.rc ≠ L8W8JWT_SUCCESS) : r.rc = r'.rc := by
  obtain ⟨⟨sg', hi', rfl⟩, -⟩ := wp_iff_forall.mp (wp_decodeRawNv (s := s') (h := k) hv ht x hx hn (fun _ => True)) _ _ he'
  have hc' := hi'.code.resolve_right (fun hx => hx.2 g')
  rcases decodeRaw_returns he with ⟨-, -, -, hbad⟩ | ⟨p1, st, g2, hp, -, -, -, hb, rfl⟩
  · exfalso
    rcases hbad with hn | hn | hn
    · exact hn hv
    · cases hn
    · rw [hx] at hn; cases hn
  cases hp
  have key : ∀ sg, SegInfo s p.alg tok sg → sg.rc = sg'.rc := fun sg hi =>
    SegCode_unique (hi.code.resolve_right (fun hx => hx.2 g)) hc'
  have hr' : sg'.rc ≠ L8W8JWT_SUCCESS := hr'
  have ho := outcome_of hc hv ht hb
  show st.rc = sg'.rc
  cases ho with
  | oom hx => exact absurd g hx
  | segs hi => exact key _ hi
  | verify hi hs => exact absurd ((key _ hi).symm.trans hs) hr'
  | claims hi hs => exact absurd ((key _ hi).symm.trans hs) hr'
  | done hi hs => exact absurd ((key _ hi).symm.trans hs) hr'

/-- Results of the raw functions on a token, without allocation failures. -/
def rawBytes (r : Res (RawOut × Heap)) : Option (Nat × List (Option Bytes)) :=
  match r with
  | .ok (r, _) => some (r.rc, [r.header, r.payload, r.signature].map (fun o => o.bind fun x => x.1.bytes.map (·.take x.2)))
  | .error _ => none

/-- A token with a wrong signature: `decode_raw` hands the segments out all the same. -/
def badTok : Bytes := mkTok hdr1 pay1 (str "0123456789012345678901234567890123456789")

example : rawBytes (decodeRaw toy (some (toyDec badTok)) false {} calm heap0) =
    rawBytes (decodeRawNoValidation toy (some (toyDec badTok)) {} calm heap0) := by
  decide +kernel

example : (rawBytes (decodeRawNoValidation toy (some (toyDec badTok)) {} calm heap0)).map (·.2) =
    some [some (str hdr1), some (str pay1), some (str "0123456789012345678901234567890123456789")] := by
  decide +kernel

/-! ## C37 -/

/-- C37: `l8w8jwt_decode_raw_no_validation` always returns (no undefined behaviour), for every NUL-terminated token and every
schedule of allocation failures. -/
theorem C37_defined (hv : validateDecodingParams env (some p) = L8W8JWT_SUCCESS) (ht : TokenMem p tok) (x : RawArgs) :
    ∃ r h', decodeRawNoValidation env (some p) x s h = .ok (r, h') := by
  by_cases hx : ((x.header && x.payload && x.signature) || x.bad) = true
  · exact ⟨_, _, by simp only [decodeRawNoValidation, if_pos hx]; rfl⟩
  · simp only [Bool.or_eq_true, not_or] at hx
    obtain ⟨r, h', he, -⟩ := wp_iff_exists.mp (wp_decodeRawNv (s := s) (h := h) hv ht x (by simpa using hx.2)
      (Bool.eq_false_iff.mpr hx.1) (fun _ => False))
    exact ⟨r, h', he⟩

/-- C37: on success the buffers hold exactly the base64url decoding of the dot-separated segments. -/
theorem C37_segments (ht : TokenMem p tok) {r : RawOut} (he : decodeRawNoValidation env (some p) {} s h = .ok (r, h'))
    (hr : r.rc = L8W8JWT_SUCCESS) :
    (∃ a b c, ThreeParts tok a b c ∧ Holds r.header a ∧ Holds r.payload b ∧ Holds r.signature c) ∨
    (p.alg = -1 ∧ ∃ a b, TwoParts tok a b ∧ Holds r.header a ∧ Holds r.payload b ∧ r.signature = some (none, 0)) := by
  obtain ⟨sg, hi, rfl, hsr⟩ := decodeNv_returns ht he hr
  rcases hi.parts with ⟨hn, -⟩ | ⟨a, b, h2, -, -, e1, e2, hs⟩ | ⟨a, b, c, h3, -, -, -, hs⟩
  · exfalso
    rcases hi.segCode hsr with ⟨-, h⟩ | ⟨a, b, h2p, -⟩ | ⟨a, b, c, h3p, -⟩
    · exact absurd h (by decide)
    · exact hn (by rw [h2p.1]; simp)
    · exact hn (by rw [h3p.1]; simp)
  · obtain ⟨ha, s1, s2⟩ := hs hsr
    refine Or.inr ⟨ha, a, b, h2, s1.holds, s2.holds, ?_⟩
    show given false sg.signature sg.signatureLength = _
    rw [e1, e2]; rfl
  · obtain ⟨s1, s2, s3⟩ := hs hsr
    exact Or.inl ⟨a, b, c, h3, s1.holds, s2.holds, s3.holds⟩

/-- C37: it succeeds exactly if the segments decode (without allocation failures). -/
theorem C37_success_iff (hv : validateDecodingParams env (some p) = L8W8JWT_SUCCESS) (ht : TokenMem p tok) (g : s.noAllocFail) {r : RawOut}
    (he : decodeRawNoValidation env (some p) {} s h = .ok (r, h')) : SegCode p.alg tok r.rc := by
  obtain ⟨⟨sg, hi, rfl⟩, -⟩ := wp_iff_forall.mp (wp_decodeRawNv (s := s) (h := h) hv ht {} rfl rfl (fun _ => True)) _ _ he
  exact hi.code.resolve_right (fun hx => hx.2 g)

theorem encode_token_ne (hc : CryptoOk env.crypto) {e : EncParams} {r : EncOut} (hok : TextsOk env e) (g : s.noGrowFail)
    (he : encode env (some e) s h = .ok (r, h')) (hr : r.rc = L8W8JWT_SUCCESS) :
    ∃ name sch id tok hdr pay sig, alg? e.alg = some (name, sch) ∧ r.out = some (some ⟨id, tok ++ [0]⟩) ∧
      r.outLength = some tok.length ∧ IsToken tok hdr pay sig ∧ HeaderIs s e name hdr ∧ PayloadIs s e pay ∧
      Emits env e (signingInput hdr pay) sig ∧ hdr ≠ [] ∧ pay ≠ [] ∧ sig ≠ [] := by
  by_cases hv : validateEncodingParams (some e) = L8W8JWT_SUCCESS
  · have := wp_iff_forall.mp (wp_encode_texts (s := s) (h := h) env hc e hok (fun _ => True) hv (Or.inr fun _ => trivial)) r h' he
    obtain ⟨-, hdr, pay, sig, tok, id, msg, ⟨name, sch, ha, hh⟩, hp, hs, n1, n2, n3, e1, e2, -, -, u1, u2⟩ := this.success hr
    have hm := u1.2 (Or.inl g)
    have ht := u2.2 (Or.inl g)
    subst hm
    exact ⟨name, sch, id, tok, hdr, pay, sig, ha, e1, e2, ht, hh, hp, hs, n1, n2, n3⟩
  · rw [C16_encode_invalid _ hv] at he; cases he; exact absurd hr hv

theorem isToken_three {hdr pay sig : Bytes} (h : IsToken tok hdr pay sig) : ThreeParts tok (b64 true hdr) (b64 true pay) (b64 true sig) :=
  ⟨by rw [h]; simp only [List.append_assoc]; rfl, dot_not_mem_b64 _, dot_not_mem_b64 _⟩

theorem b64Decode_b64 {d : Bytes} (hd : d ≠ []) : b64Decode true (b64 true d) = some d := b64Decode_text true d hd

/-- C37: raw decoding of an encoded token gives back the header, payload and signature the encoder put into it (without
allocation failures). -/
theorem C37_encoded (hc : CryptoOk env.crypto) {e : EncParams} {r : EncOut} (hok : TextsOk env e) (g : s.noGrowFail)
    (he : encode env (some e) s h = .ok (r, h')) (hr : r.rc = L8W8JWT_SUCCESS) :
    ∃ id tok hdr pay sig, r.out = some (some ⟨id, tok ++ [0]⟩) ∧ IsToken tok hdr pay sig ∧
      (∃ name sch, alg? e.alg = some (name, sch) ∧ HeaderIs s e name hdr) ∧ PayloadIs s e pay ∧ Emits env e (signingInput hdr pay) sig ∧
      ∀ (env' : Env) (p : DecParams) (s' : Sched) (k : Heap), s'.noAllocFail → validateDecodingParams env' (some p) = L8W8JWT_SUCCESS →
        TokenMem p tok → ∃ i1 i2 i3 m1 m2 m3 k', decodeRawNoValidation env' (some p) {} s' k = .ok ({
          rc := L8W8JWT_SUCCESS
          header := some (some ⟨i1, hdr ++ m1⟩, hdr.length)
          payload := some (some ⟨i2, pay ++ m2⟩, pay.length)
          signature := some (some ⟨i3, sig ++ m3⟩, sig.length) }, k') := by
  obtain ⟨name, sch, id, tok, hdr, pay, sig, ha, e1, -, ht, hh, hp, hs, n1, n2, n3⟩ := encode_token_ne hc hok g he hr
  refine ⟨id, tok, hdr, pay, sig, e1, ht, ⟨name, sch, ha, hh⟩, hp, hs, fun env' p s' k g' hv htm => ?_⟩
  obtain ⟨r, k', he', ⟨sg, hi, rfl⟩, -⟩ := wp_iff_exists.mp (wp_decodeRawNv (env := env') (s := s') (h := k) hv htm {} rfl rfl (fun _ => False))
  have h3 := isToken_three ht
  have d1 := b64Decode_b64 n1
  have d2 := b64Decode_b64 n2
  have d3 := b64Decode_b64 n3
  have hsr : sg.rc = L8W8JWT_SUCCESS := by
    refine SegCode_unique (hi.code.resolve_right (fun hx => hx.2 g')) (Or.inr (Or.inr ⟨_, _, _, h3, Or.inr ⟨?_, ?_, ?_, rfl⟩⟩))
    · rw [d1]; simp
    · rw [d2]; simp
    · rw [d3]; simp
  have key : ∀ (q : Ptr) (n : Nat) (x : Bytes), b64Decode true (b64 true x) = some x → Seg q n (b64 true x) →
      ∃ i m, q = some ⟨i, x ++ m⟩ ∧ n = x.length := by
    rintro q n x hx ⟨i, d, rfl, hd, rfl⟩
    rw [hx] at hd; cases hd
    exact ⟨i, _, by simp only [segBuf, hx, Option.getD_some, padTo, List.append_assoc]; rfl, rfl⟩
  rcases hi.parts with ⟨hn, -⟩ | ⟨a, b, h2, -⟩ | ⟨a, b, c, h3', -, -, -, hseg⟩
  · exact absurd (by rw [h3.1]; simp) hn
  · exact (two_not_three h2 h3).elim
  · obtain ⟨rfl, rfl, rfl⟩ := three_unique h3 h3'
    obtain ⟨s1, s2, s3⟩ := hseg hsr
    obtain ⟨i1, m1, f1, l1⟩ := key _ _ _ d1 s1
    obtain ⟨i2, m2, f2, l2⟩ := key _ _ _ d2 s2
    obtain ⟨i3, m3, f3, l3⟩ := key _ _ _ d3 s3
    refine ⟨i1, i2, i3, m1, m2, m3, k', ?_⟩
    rw [he']
    simp only [rawNvOut, given, hsr, f1, f2, f3, l1, l2, l3, Bool.false_eq_true, if_false]

/-! ## C38 -/

theorem base64Decode_nul (c junk : Bytes) (h0 : 0 ∉ c) (a b : Bool) :
    base64Decode true (some (c ++ 0 :: junk)) (c.length + 1) a b = base64Decode true (some (c ++ 0 :: junk)) c.length a b := by
  unfold base64Decode
  simp only
  by_cases hab : (a || b) = true
  · rw [if_pos hab, if_pos hab]
  rw [if_neg hab, if_neg hab, if_neg (by omega)]
  have hlast : rd (c ++ 0 :: junk) (c.length + 1 - 1) = .ok 0 := by simp [rd]
  have hrd : rdN (c ++ 0 :: junk) c.length = .ok c := by simp [rdN]
  by_cases hc : c.length = 0
  · have : c = [] := List.eq_nil_of_length_eq_zero hc
    subst this
    rfl
  rw [if_neg hc, hlast]
  have hlast' : ∃ x, rd (c ++ 0 :: junk) (c.length - 1) = .ok x ∧ x ≠ 0 := by
    have hlt : c.length - 1 < c.length := by omega
    refine ⟨c[c.length - 1], ?_, ?_⟩
    · simp only [rd, List.getElem?_append_left hlt, List.getElem?_eq_getElem hlt]
    · intro hx; exact h0 (hx ▸ List.getElem_mem hlt)
  obtain ⟨x, hx, hx0⟩ := hlast'
  rw [hx]
  funext s h
  rw [run_bind_ok _ (run_lift_ok _), run_bind_ok _ (run_lift_ok _)]
  simp only [if_true, hx0, if_false, Nat.add_sub_cancel]

theorem decodeSegments_nul (ht : TokenMem p tok) (n : Nat) (hn : n = tok.length ∨ n = tok.length + 1) :
    decodeSegments { p with jwtLength := n } = decodeSegments { p with jwtLength := tok.length } := by
  obtain ⟨⟨junk, hj⟩, h0, -, hl⟩ := ht
  rcases hn with rfl | rfl
  · rfl
  have hcur : ∀ pre c : Bytes, tok = pre ++ c → ptrDiff (tok.length + 1) pre.length = c.length + 1 ∧ ptrDiff tok.length pre.length = c.length ∧
      (tok ++ 0 :: junk).drop pre.length = c ++ 0 :: junk ∧ 0 ∉ c := by
    rintro pre c rfl
    simp only [List.length_append] at hl ⊢
    rw [ptrDiff_le _ _ (by omega) (by omega), ptrDiff_le _ _ (by omega) (by omega)]
    refine ⟨by omega, by omega, ?_, fun hx => h0 (by simp [hx])⟩
    rw [List.append_assoc, List.drop_left]
  funext s h
  unfold decodeSegments
  simp only [hj]
  rw [show (deref (some (tok ++ 0 :: junk)) : Res Bytes) = .ok (tok ++ 0 :: junk) from rfl]
  rw [run_bind_ok _ (run_lift_ok _), run_bind_ok _ (run_lift_ok _)]
  rcases first_dot tok with hd | ⟨a, rest, rfl, ha⟩
  · rw [strchr_none _ _ _ (by decide) hd h0]
    rfl
  · have h0a : 0 ∉ a := fun hx => h0 (by simp [hx])
    have h0r : 0 ∉ rest := fun hx => h0 (by simp [hx])
    rw [show a ++ 46 :: rest ++ 0 :: junk = a ++ 46 :: (rest ++ 0 :: junk) by simp, strchr_found _ _ _ ha h0a]
    rw [run_bind_ok _ (run_lift_ok _), run_bind_ok _ (run_lift_ok _)]
    simp only
    rw [run_bind, run_bind]
    split
    · rfl
    rename_i hh h2 he
    by_cases hrc : hh.rc ≠ L8W8JWT_SUCCESS
    · rw [if_pos hrc, if_pos hrc]
    rw [if_neg hrc, if_neg hrc, drop_len]
    obtain ⟨q1, q2, q3, q4⟩ := hcur (a ++ [46]) rest (by simp)
    have hlen1 : (a ++ [46]).length = a.length + 1 := by simp
    rw [hlen1] at q1 q2 q3
    rcases first_dot rest with hd | ⟨b, c, rfl, hb⟩
    · rw [strchr_none _ _ _ (by decide) hd h0r]
      rw [run_bind_ok _ (run_lift_ok _), run_bind_ok _ (run_lift_ok _)]
      by_cases hm : ((none : Option Nat).isNone = true ∧ p.alg ≠ -1)
      · rw [if_pos hm, if_pos hm]
      rw [if_neg hm, if_neg hm]
      simp only [q1, q2]
      rw [base64Decode_nul _ _ h0r]
    · have h0b : 0 ∉ b := fun hx => h0r (by simp [hx])
      have h0c : 0 ∉ c := fun hx => h0r (by simp [hx])
      rw [show b ++ 46 :: c ++ 0 :: junk = b ++ 46 :: (c ++ 0 :: junk) by simp, strchr_found _ _ _ hb h0b]
      rw [run_bind_ok _ (run_lift_ok _), run_bind_ok _ (run_lift_ok _)]
      rw [if_neg (by simp), if_neg (by simp)]
      simp only
      rw [run_bind, run_bind]
      split
      · rfl
      rename_i bb h3 he'
      by_cases hrc : bb.rc ≠ L8W8JWT_SUCCESS
      · rw [if_pos hrc, if_pos hrc]
      rw [if_neg hrc, if_neg hrc]
      obtain ⟨q1, q2, q3, q4⟩ := hcur (a ++ 46 :: (b ++ [46])) c (by simp)
      have hlen : (a ++ 46 :: (b ++ [46])).length = a.length + 1 + b.length + 1 := by simp; omega
      rw [hlen] at q1 q2 q3
      rw [q1, q2]
      have hdrop : (a ++ 46 :: (b ++ 46 :: (c ++ 0 :: junk))).drop (a.length + 1 + b.length + 1) = c ++ 0 :: junk := by
        refine Eq.trans ?_ q3; simp
      rw [hdrop, base64Decode_nul _ _ h0c]

/-- C38: counting the terminator in `jwt_length` makes no difference, for any of the functions (the results are equal as
functions of the state: same codes, same buffers, same allocations). -/
theorem C38_length_with_nul (ht : TokenMem p tok) (hne : tok ≠ []) (a b c : Bool) (x : RawArgs) :
    decode env (some { p with jwtLength := tok.length + 1 }) a b c = decode env (some { p with jwtLength := tok.length }) a b c ∧
    decodeRaw env (some { p with jwtLength := tok.length + 1 }) a x = decodeRaw env (some { p with jwtLength := tok.length }) a x ∧
    decodeRawNoValidation env (some { p with jwtLength := tok.length + 1 }) x =
      decodeRawNoValidation env (some { p with jwtLength := tok.length }) x := by
  have hs := decodeSegments_nul ht (tok.length + 1) (Or.inr rfl)
  have hlen : tok.length ≠ 0 := fun h => hne (List.eq_nil_of_length_eq_zero h)
  have hv : validateDecodingParams env (some { p with jwtLength := tok.length + 1 }) =
      validateDecodingParams env (some { p with jwtLength := tok.length }) := by
    simp [validateDecodingParams, hlen]
  have hvb : ∀ sig n, verifyBody env { p with jwtLength := tok.length + 1 } sig n = verifyBody env { p with jwtLength := tok.length } sig n :=
    fun _ _ => rfl
  have hvs : ∀ v sig n, verifySignature env { p with jwtLength := tok.length + 1 } v sig n =
      verifySignature env { p with jwtLength := tok.length } v sig n := fun _ _ _ => rfl
  have hvc : ∀ cs v, validateClaims env { p with jwtLength := tok.length + 1 } cs v =
      validateClaims env { p with jwtLength := tok.length } cs v := fun _ _ => rfl
  have hb : decodeBody env { p with jwtLength := tok.length + 1 } = decodeBody env { p with jwtLength := tok.length } := by
    unfold decodeBody
    rw [hs]
    rfl
  refine ⟨?_, ?_, ?_⟩
  · simp only [decode, hv, hb]
  · simp only [decodeRaw, hv, decodeRawBody_eq, hb]
  · simp only [decodeRawNoValidation, hv, hs]

example : (let t := mkTok hdr1 pay1 (toyMac hdr1 pay1); verdict { toyDec t with jwtLength := t.length + 1 } = some (0, some 0)) := by
  decide +kernel

/-! ## C39 -/

/-- C39: decoding does exactly the same for a key given with its terminating NUL counted and not counted. -/
theorem C39_decode_nul (k junk : Bytes) (h0 : k ≠ []) (hl : k.length ≤ 8191) (hn : k.getLast? ≠ some 0) (a b c : Bool) :
    decode env (some { p with verificationKey := some (k ++ junk), verificationKeyLength := k.length }) a b c =
      decode env (some { p with verificationKey := some (k ++ [0]), verificationKeyLength := k.length + 1 }) a b c := by
  have hk := loadKey_nul k h0 hl hn junk
  have hp : k.length ≠ 0 := by cases k with | nil => exact absurd rfl h0 | cons a t => simp
  have hm : L8W8JWT_MAX_KEY_SIZE = 8192 := rfl
  have hv : validateDecodingParams env (some { p with verificationKey := some (k ++ junk), verificationKeyLength := k.length }) =
      validateDecodingParams env (some { p with verificationKey := some (k ++ [0]), verificationKeyLength := k.length + 1 }) := by
    have h1 : ¬ 8192 < k.length := by omega
    have h2 : ¬ 8192 < k.length + 1 := by omega
    simp [validateDecodingParams, hm, hp, h1, h2]
  have hvb : ∀ sig n, verifyBody env { p with verificationKey := some (k ++ junk), verificationKeyLength := k.length } sig n =
      verifyBody env { p with verificationKey := some (k ++ [0]), verificationKeyLength := k.length + 1 } sig n := by
    intro sig n
    simp only [verifyBody, hk]
  have hb : decodeBody env { p with verificationKey := some (k ++ junk), verificationKeyLength := k.length } =
      decodeBody env { p with verificationKey := some (k ++ [0]), verificationKeyLength := k.length + 1 } := by
    unfold decodeBody
    have hvs : ∀ v sig n, verifySignature env { p with verificationKey := some (k ++ junk), verificationKeyLength := k.length } v sig n =
        verifySignature env { p with verificationKey := some (k ++ [0]), verificationKeyLength := k.length + 1 } v sig n := by
      intro v sig n
      simp only [verifySignature, hvb]
    simp only [hvs]
    rfl
  simp only [decode, hv, hb]

example : (let t := mkTok hdr1 pay1 (toyMac hdr1 pay1);
    verdict { toyDec t with verificationKey := some (str "secret" ++ [0]), verificationKeyLength := 7 } = some (0, some 0)) := by
  decide +kernel

/-- C39: signer and verifier derive the same HMAC key from the same key parameters: the key of `C29_hmac_partial` is the key of
`C39_hmac_key`. -/
theorem C39_same_key (e : EncParams) (hk : p.verificationKey = e.secretKey) (hl : p.verificationKeyLength = e.secretKeyLength) :
    hmacKey (verKey p) = hmacKey (keyBytes e) := by
  simp [verKey, keyBytes, hk, hl]

end L8w8jwt
