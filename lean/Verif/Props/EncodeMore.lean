import Verif.Props.Encode
/-!
# Further properties of the encoder: completeness, memory safety, out-of-memory behaviour, key handling
-/

namespace L8w8jwt
open Spec

variable {s : Sched} {h h' : Heap} {env : Env} {p : EncParams} {r : EncOut}

/-! ## C52, C53 -/

/-- C53: the encoder is free of undefined behaviour for readable parameters, under every schedule of allocation failures and
for every behaviour of the primitives that keeps their contract. Missing for the full statement (no undefined behaviour for
all readable parameters): non-ASCII bytes where `char` is signed (C13), PEM keys of 8192 bytes without terminator (C48),
allocation failures with `L8W8JWT_SMALL_STACK` (`C53_small_stack_false`), texts whose encoding exceeds `INT_MAX`. -/
theorem C53_encode_defined_partial (hc : CryptoOk env.crypto) (hok : TextsOk env p) (hk : KeyReadable p)
    (hf : env.crypto.seedOk = true → needsPem p.alg → PemFits p) (hst : env.smallStack = false ∨ ∀ k, s.failAlloc k = false) (hz : SizesOk p) :
    ∃ r h', encode env (some p) s h = .ok (r, h') := by
  by_cases hv : validateEncodingParams (some p) = L8W8JWT_SUCCESS
  · obtain ⟨r, h', e, -⟩ := wp_iff_exists.mp (wp_encode_texts (s := s) (h := h) env hc p hok (fun _ => False) hv
      (Or.inl ⟨hk, hf, hst, hz⟩))
    exact ⟨r, h', e⟩
  · exact ⟨_, _, C16_encode_invalid _ hv⟩

theorem fits_small {n : Nat} (hf : b64Fits n) : n < 2 ^ 62 := by
  unfold b64Fits intMax at hf; omega

/-- Neither text is empty or too long. -/
theorem texts_small (hz : SizesOk p) (g : s.noGrowFail) {b : Bytes}
    (hb : (∃ name sch, alg? p.alg = some (name, sch) ∧ HeaderIs s p name b) ∨ PayloadIs s p b)
    (hbad : b = [] ∨ 2 ^ 62 ≤ b.length) : False := by
  have hb' : b ≠ [] ∧ b.length < 2 ^ 62 := by
    rcases hb with ⟨name', sch', ha', hh⟩ | hpay
    · have hl := hh.1
      have := fits_small (hz.2 _ _ ha')
      refine ⟨by rcases (hh.2 (Or.inl g)).1 with e | e <;> rw [e] <;> simp [str], ?_⟩
      unfold writtenHeader at this
      omega
    · have hl := hpay.1
      have := fits_small hz.1
      exact ⟨by obtain ⟨r, e, -, -, e1⟩ := (hpay.2 (Or.inl g)).1; rw [e1]; simp [payloadForm, str], by unfold writtenPayload at this; omega⟩
  rcases hbad with hbad | hbad
  · exact hb'.1 hbad
  · exact absurd hb'.2 (by omega)

/-- C52: without allocation failures encoding succeeds whenever the parameters are valid and readable, the algorithm is
known, and the primitives can sign the text with the given key; the token is then exactly header, payload and signature. -/
theorem C52_encode_complete (hc : CryptoOk env.crypto) (hok : TextsOk env p) (hk : KeyReadable p)
    (hf : env.crypto.seedOk = true → needsPem p.alg → PemFits p) (hz : SizesOk p) (g : s.good) (hv : validateEncodingParams (some p) = L8W8JWT_SUCCESS)
    (name : String) (sch : Scheme) (ha : alg? p.alg = some (name, sch))
    (hcs : CanSign env p (signingInput (writtenHeader p name) (writtenPayload p))) :
    ∃ r h' id sig tok, encode env (some p) s h = .ok (r, h') ∧ r.rc = L8W8JWT_SUCCESS ∧
      r.out = some (some ⟨id, tok ++ [0]⟩) ∧ r.outLength = some tok.length ∧ h'.live = id :: h.live ∧
      IsToken tok (writtenHeader p name) (writtenPayload p) sig ∧
      (¬ OddPss env p → Signs env p (signingInput (writtenHeader p name) (writtenPayload p)) sig) := by
  obtain ⟨r, h', e, hp⟩ := wp_iff_exists.mp (wp_encode_texts (s := s) (h := h) env hc p hok (fun _ => False) hv
    (Or.inl ⟨hk, hf, Or.inr g.1, hz⟩))
  have hr : r.rc = L8W8JWT_SUCCESS := by
    by_cases hr : r.rc = L8W8JWT_SUCCESS
    · exact hr
    · exfalso
      obtain ⟨-, -, -, hd⟩ := hp.failure hr
      rcases hd with ⟨h1, -⟩ | ⟨b, hb, hbad⟩ | ⟨hdr, pay, msg, ⟨name', sch', ha', hh⟩, hpay, u, hs⟩ | ⟨⟨k, hk⟩, -⟩
      · rw [h1] at ha; cases ha
      · exact texts_small hz g.2 hb hbad
      · rw [ha] at ha'; cases ha'
        have e1 := (hh.2 (Or.inl g.2)).2 g.1
        have e2 := (hpay.2 (Or.inl g.2)).2 g.1
        rcases hs with hs | ⟨sig, hs, hbad⟩
        · apply hs
          rw [u.2 (Or.inl g.2), e1, e2]; exact hcs
        · rcases hbad with hbad | hbad
          · exact emits_ne hc hs hbad
          · have := hs.2.1; omega
      · rw [g.1 k] at hk; cases hk
  obtain ⟨-, hdr, pay, sig, tok, id, msg, ⟨name', sch', ha', hh⟩, hpay, hs, -, -, -, e1, e2, l, -, u1, u2⟩ := hp.success hr
  rw [ha] at ha'; cases ha'
  have hh' : hdr = writtenHeader p name := (hh.2 (Or.inl g.2)).2 g.1
  have hp' : pay = writtenPayload p := (hpay.2 (Or.inl g.2)).2 g.1
  have hm := u1.2 (Or.inl g.2)
  have ht := u2.2 (Or.inl g.2)
  subst hm hh' hp'
  exact ⟨r, h', id, sig, tok, e, hr, e1, e2, l, ht, fun hn => emits_signs hs hn⟩

/-- The hypotheses are satisfiable: the toy parameters can be signed. -/
example : CanSign toy toyParams (signingInput (writtenHeader toyParams "HS256") (writtenPayload toyParams)) :=
  ⟨rfl, trivial, _, rfl⟩

/-- C53 is false in builds with `L8W8JWT_SMALL_STACK`: if the key buffer cannot be allocated, it is cleared nevertheless. -/
theorem C53_small_stack_false : ∃ s p, (∀ k, s.failGrow k = none) ∧
    (encode { toy with smallStack := true } (some p) s heap0).map (fun _ => ()) = .error .nullDeref :=
  ⟨{ failAlloc := fun k => k == 13, failGrow := fun _ => none }, toyParams, fun _ => rfl, by decide +kernel⟩

/-! ## C48 (encoder) -/

/-- C48: keys whose length is accepted are read in bounds, except PEM keys of exactly 8192 bytes without terminating NUL.
This is `C53_encode_defined_partial` read as a statement about keys. Missing for the full statement: those keys, for which it
is false (`C48_encode_key_false`). -/
theorem C48_encode_key_partial (hc : CryptoOk env.crypto) (msg : Bytes) (hk : KeyReadable p)
    (hv : validateEncodingParams (some p) = L8W8JWT_SUCCESS) (ha : (alg? p.alg).isSome)
    (hf : env.crypto.seedOk = true → needsPem p.alg → (keyBytes p).length < 8192 ∨ (keyBytes p).getLast? = some 0) :
    ∃ x, sigOf env p msg = .ok x := by
  obtain ⟨x, e, -⟩ := rwp_iff_exists.mp (sigOf_post hc p msg (fun _ => False) hv ha (Or.inl ⟨hk, hf⟩))
  exact ⟨x, e⟩

/-- C48 is false: for every PEM algorithm and every accepted key of 8192 bytes without terminating NUL, the key buffer is
read out of bounds. -/
theorem C48_encode_key_false (hok : TextsOk env p) (hz : SizesOk p) (g : s.good) (hk : KeyReadable p)
    (hv : validateEncodingParams (some p) = L8W8JWT_SUCCESS) (hn : needsPem p.alg) (hs : env.crypto.seedOk = true)
    (hlen : p.secretKeyLength = 8192) (hl : (keyBytes p).getLast? ≠ some 0) :
    encode env (some p) s h = .error .oobRead := by
  have hf : ¬ PemFits p := by
    obtain ⟨⟨mem, hm, hle⟩, -⟩ := hk
    have : (keyBytes p).length = 8192 := by simp [keyBytes, hm]; omega
    have hx : L8W8JWT_MAX_KEY_SIZE = 8192 := rfl
    rintro (h | h)
    · omega
    · exact hl h
  have hw := wp_encode_with (s := s) (h := h) env p hok (fun _ _ => False) (fun _ _ => False) (· = UB.oobRead) hv
    (fun msg _ => by rw [sigOf_oob env p msg hv hk hn hf hs]; rfl) (fun _ _ h => h.elim) (Or.inl ⟨Or.inr g.1, hz⟩)
  unfold wp at hw
  cases he : encode env (some p) s h with
  | error e => rw [he] at hw; simp only at hw; rw [hw]
  | ok x =>
    exfalso
    obtain ⟨r, h'⟩ := x
    rw [he] at hw
    simp only at hw
    by_cases hr : r.rc = L8W8JWT_SUCCESS
    · obtain ⟨-, _, _, _, _, _, _, -, -, hx, -⟩ := hw.success hr
      exact hx
    · obtain ⟨-, -, -, hd⟩ := hw.failure hr
      rcases hd with ⟨h1, -⟩ | ⟨b, hb, hbad⟩ | ⟨_, _, _, -, -, -, hx | ⟨_, hx, -⟩⟩ | ⟨⟨k, hk⟩, -⟩
      · rcases alg?_range p.alg with ⟨j, hj⟩ | ⟨-, h2⟩
        · have key : ∀ j : Fin 14, (alg? (j.val : Int)).isSome = true := by decide +kernel
          have := key j
          rw [← hj, h1] at this; cases this
        · have := hn.1; have := hn.2; omega
      · exact texts_small hz g.2 hb hbad
      · exact hx
      · exact hx
      · rw [g.1 k] at hk; cases hk

/-- Such a parameter struct exists. -/
example : ∃ p, TextsOk toy p ∧ SizesOk p ∧ KeyReadable p ∧ validateEncodingParams (some p) = L8W8JWT_SUCCESS ∧ needsPem p.alg ∧
    p.secretKeyLength = 8192 ∧ (keyBytes p).getLast? ≠ some 0 := by
  refine ⟨{ toyParams with alg := 3, secretKey := some (List.replicate 8192 82), secretKeyLength := 8192 },
    ⟨?_, ?_, ?_, ?_, ?_, ?_⟩, ⟨by unfold b64Fits; decide, fun _ _ ha => by cases ha; unfold b64Fits; decide⟩, ⟨⟨_, rfl, ?_⟩, ?_⟩, ?_, ⟨by decide, by decide⟩, rfl, ?_⟩
  any_goals (intro b hb; cases hb)
  · rw [List.length_replicate]; exact Nat.le_refl _
  · rfl
  · simp only [keyBytes, Option.getD_some, List.take_replicate, List.getLast?_replicate]; decide

end L8w8jwt
