import Verif.Spec.Spelling
import Verif.Props.Answer
import Verif.Props.DecodeRaw
/-!
# Property C69: spellings of one token
-/

namespace L8w8jwt
open Spec

variable {s : Sched} {h h' : Heap} {env : Env} {p q : DecParams} {tok tok' : Bytes}

/-! ## What the answer depends on -/

theorem segCode_sig {alg : Int} {a b c c' : Bytes} (h3 : ThreeParts tok a b c) (h3' : ThreeParts tok' a b c')
    (hb : b64Decode true c = none ↔ b64Decode true c' = none) {rc : Nat} (hs : SegCode alg tok rc) : SegCode alg tok' rc := by
  rcases hs with ⟨hn, -⟩ | ⟨x, y, h2, -⟩ | ⟨x, y, z, h4, hs⟩
  · exact absurd (by rw [h3.1]; simp) hn
  · exact (two_not_three h2 h3).elim
  · obtain ⟨rfl, rfl, rfl⟩ := three_unique h3 h4
    refine Or.inr (Or.inr ⟨_, _, _, h3', ?_⟩)
    rw [← hb, ne_eq, ne_eq, ne_eq, ← hb]
    exact hs

theorem verifyFails_sig {a b c c' : Bytes} (h3 : ThreeParts tok a b c) (h3' : ThreeParts tok' a b c') {rc : Nat}
    (hs : VerifyFails env p tok rc) : VerifyFails env p tok' rc := by
  obtain ⟨h1, x, y, z, h4, hs⟩ := hs
  obtain ⟨rfl, rfl, rfl⟩ := three_unique h3 h4
  exact ⟨h1, _, _, _, h3', hs⟩

theorem parts_sig {a b c c' x y : Bytes} (h3 : ThreeParts tok a b c) (h3' : ThreeParts tok' a b c') (hp : Parts tok x y) : Parts tok' x y := by
  obtain ⟨rfl, rfl⟩ := parts_unique hp (Or.inr ⟨c, h3⟩)
  exact Or.inr ⟨c', h3'⟩

theorem badSignature_sig {a b c c' : Bytes} (h3 : ThreeParts tok a b c) (h3' : ThreeParts tok' a b c')
    (hv : Verifies env p.alg (verKey p) (a ++ 46 :: b) c ↔ Verifies env p.alg (verKey p) (a ++ 46 :: b) c') :
    BadSignature env p tok ↔ BadSignature env p tok' := by
  constructor
  · rintro ⟨h1, h2, x, y, z, h4, hs⟩
    obtain ⟨rfl, rfl, rfl⟩ := three_unique h3 h4
    exact ⟨h1, h2, _, _, _, h3', by rwa [← hv]⟩
  · rintro ⟨h1, h2, x, y, z, h4, hs⟩
    obtain ⟨rfl, rfl, rfl⟩ := three_unique h3' h4
    exact ⟨h1, h2, _, _, _, h3, by rwa [hv]⟩

theorem decCode_sig {a b c c' : Bytes} (h3 : ThreeParts tok a b c) (h3' : ThreeParts tok' a b c')
    (hb : b64Decode true c = none ↔ b64Decode true c' = none) {rc : Nat} (hd : DecCode env p tok rc) : DecCode env p tok' rc := by
  have nf : (∀ rc, ¬ VerifyFails env p tok rc) → ∀ rc, ¬ VerifyFails env p tok' rc :=
    fun hn rc hf => hn rc (verifyFails_sig h3' h3 hf)
  cases hd with
  | segments h1 h2 => exact .segments (segCode_sig h3 h3' hb h1) h2
  | verify h1 h2 => exact .verify (segCode_sig h3 h3' hb h1) (verifyFails_sig h3 h3' h2)
  | claims h1 h2 h4 h5 => exact .claims (segCode_sig h3 h3' hb h1) (nf h2) (parts_sig h3 h3' h4) h5
  | done h1 h2 h4 h5 h6 => exact .done (segCode_sig h3 h3' hb h1) (nf h2) (parts_sig h3 h3' h4) h5 h6

/-- Tokens that differ in the signature only have the same answer if the signatures are equally decodable and equally good. -/
theorem answer_sig {a b c c' : Bytes} (h3 : ThreeParts tok a b c) (h3' : ThreeParts tok' a b c')
    (hb : b64Decode true c = none ↔ b64Decode true c' = none)
    (hv : Verifies env p.alg (verKey p) (a ++ 46 :: b) c ↔ Verifies env p.alg (verKey p) (a ++ 46 :: b) c')
    {rc : Nat} {v : BitVec 32} {ds : List DClaim} (ha : Answer env p tok rc v ds) : Answer env p tok' rc v ds := by
  have hbad := badSignature_sig (p := p) h3 h3' hv
  cases ha with
  | failed h1 h2 => exact .failed (decCode_sig h3 h3' hb h1) h2
  | good h1 h2 h4 h5 h6 => exact .good (decCode_sig h3 h3' hb h1) (parts_sig h3 h3' h2) h4 h5 (fun hx => h6 (hbad.mpr hx))
  | bad h1 h2 h4 h5 h6 => exact .bad (decCode_sig h3 h3' hb h1) (parts_sig h3 h3' h2) h4 h5 (hbad.mp h6)

/-! ## Ignored characters -/

theorem b64Decode_filter {c c' : Bytes} (hf : c.filter (relevant true) = c'.filter (relevant true)) : b64Decode true c = b64Decode true c' := by
  unfold b64Decode; rw [hf]

theorem view_filter {c c' : Bytes} (hf : c.filter (relevant true) = c'.filter (relevant true)) : view c = view c' := by
  funext n
  unfold view leftover
  rw [hf, b64Decode_filter hf]

theorem verifies_filter {alg : Int} {key msg c c' : Bytes} (hf : c.filter (relevant true) = c'.filter (relevant true)) :
    Verifies env alg key msg c ↔ Verifies env alg key msg c' := by
  unfold Verifies
  rw [b64Decode_filter hf, view_filter hf]

theorem _root_.L8w8jwt.Spec.Respelt.symm (hr : Respelt tok tok') : Respelt tok' tok := by
  obtain ⟨a, b, c, c', h3, h3', hf⟩ := hr
  exact ⟨a, b, c', c, h3', h3, hf.symm⟩

theorem respelt_answer (hr : Respelt tok tok') {rc : Nat} {v : BitVec 32} {ds : List DClaim} (ha : Answer env p tok rc v ds) :
    Answer env p tok' rc v ds := by
  obtain ⟨a, b, c, c', h3, h3', hf⟩ := hr
  exact answer_sig h3 h3' (by rw [b64Decode_filter hf]) (verifies_filter hf) ha

/-- Decoding is defined for all spellings of a token or for none. -/
theorem respelt_defined (hr : Respelt tok tok') (hd : DecDefined env p tok) : DecDefined env p tok' := by
  obtain ⟨a, b, c, c', h3, h3', hf⟩ := hr
  intro hs
  obtain ⟨h1, h2⟩ := hd (segCode_sig h3' h3 (by rw [b64Decode_filter hf]) hs)
  refine ⟨fun hn x y z h4 => ?_, fun hn x y hp => ?_⟩
  · obtain ⟨rfl, rfl, rfl⟩ := three_unique h3' h4
    have e : room c = room c' := by unfold room; rw [hf]
    obtain ⟨d1, d2, d3, d4, d5, d6, d7⟩ := h1 hn _ _ _ h3
    exact ⟨d1, d2, d3, e ▸ d4, e ▸ d5, d6, e ▸ d7⟩
  · exact h2 (fun rc hx => hn rc (verifyFails_sig h3 h3' hx)) x y (parts_sig h3' h3 hp)

/-- Characters that are not in the base64url alphabet can be added anywhere in the signature. -/
theorem respelt_insert {a b c d x : Bytes} (h3 : ThreeParts tok a b (c ++ d)) (hx : ∀ y ∈ x, relevant true y = false) :
    Respelt tok (a ++ 46 :: (b ++ 46 :: (c ++ x ++ d))) := by
  refine ⟨a, b, c ++ d, c ++ x ++ d, h3, ⟨rfl, h3.2.1, h3.2.2⟩, ?_⟩
  have : x.filter (relevant true) = [] := List.filter_eq_nil_iff.mpr fun y hy => by simp [hx y hy]
  simp [this]

theorem respelt_append {a b c x : Bytes} (h3 : ThreeParts tok a b c) (hx : ∀ y ∈ x, relevant true y = false) : Respelt tok (tok ++ x) := by
  have := respelt_insert (c := c) (d := []) (by simpa using h3) hx
  rw [h3.1]
  rw [← h3.1]
  simpa [h3.1] using this

/-! ## C69 -/

/-- C69 (what the code guarantees instead, see `C69_one_spelling_false`): two runs for tokens whose header and payload texts agree, and
whose signature texts agree up to characters that are not base64url characters, give the same code, the same validation result and
the same claims. -/
theorem C69_respelt (hc : CryptoOk env.crypto) (hr : Respelt tok tok') (hs : SameRequest p q) (ht : TokenMem p tok) (ht' : TokenMem q tok')
    (hv : validateDecodingParams env (some p) = L8W8JWT_SUCCESS) (hv' : validateDecodingParams env (some q) = L8W8JWT_SUCCESS)
    (hx : ExpectOk p) (hx' : ExpectOk q) (hn : NowOk env.now) {s' : Sched} (gd : s.good) (gd' : s'.good) {k k' : Heap} {r r' : DecOut}
    (he : decode env (some p) false false false s h = .ok (r, h'))
    (he' : decode env (some q) false false false s' k = .ok (r', k')) :
    r.rc = r'.rc ∧ r.validation = r'.validation ∧
      (r.rc = L8W8JWT_SUCCESS → ∃ ds arr arr', r.claims = some arr ∧ r'.claims = some arr' ∧ Views arr.items ds ∧ Views arr'.items ds) := by
  obtain ⟨v, ds, a1, a2, a3⟩ := decode_answer hc ht gd hx hn hv he
  obtain ⟨v', ds', b1, b2, b3⟩ := decode_answer hc ht' gd' hx' hn hv' he'
  obtain ⟨e1, rfl, rfl⟩ := answer_unique (answer_same (g := env.garbage) (b := env.smallStack) hs (respelt_answer hr a1)) b1
  refine ⟨e1, a2.trans b2.symm, fun hr => ?_⟩
  obtain ⟨arr, c1, c2⟩ := a3 hr
  obtain ⟨arr', d1, d2⟩ := b3 (e1 ▸ hr)
  exact ⟨ds, arr, arr', c1, d1, c2, d2⟩

theorem withToken_mem (h0 : 0 ∉ tok) (hl : tok.length < 2 ^ 63) : TokenMem (withToken p tok) tok := ⟨⟨[], rfl⟩, h0, Or.inl rfl, hl⟩

theorem withToken_valid (hv : validateDecodingParams env (some p) = L8W8JWT_SUCCESS) (ht : tok ≠ []) :
    validateDecodingParams env (some (withToken p tok)) = L8W8JWT_SUCCESS := by
  have hl : tok.length ≠ 0 := by simpa using ht
  revert hv
  unfold validateDecodingParams withToken
  simp only
  split
  · intro h; cases h
  · rename_i h1
    split
    · intro h; cases h
    · rename_i h2
      intro h3
      rw [if_neg (by simp at h1 ⊢; exact h1.2), if_neg (by simp only [Bool.or_eq_true, decide_eq_true_eq, not_or] at h2 ⊢; exact ⟨⟨hl, h2.1.2⟩, h2.2⟩)]
      exact h3

theorem withToken_same : SameRequest p (withToken p tok) :=
  ⟨rfl, rfl, rfl, rfl, rfl, rfl, ⟨rfl, rfl⟩, ⟨rfl, rfl⟩, ⟨rfl, rfl⟩, ⟨rfl, rfl⟩⟩

theorem withToken_defined (hd : DecDefined env p tok) : DecDefined env (withToken p tok') tok := by
  intro hs
  obtain ⟨h1, h2⟩ := hd hs
  refine ⟨fun hn a b c h3 => ?_, h2⟩
  obtain ⟨d1, d2, d3, d4, d5, d6, d7⟩ := h1 hn a b c h3
  exact ⟨d1, d2, d3, d4, d5, d6, d7⟩

/-- C69 is false of the code, for every token with a signature and every algorithm: adding any characters that are neither base64url
characters nor NUL (e.g. `!`) to the end of a token gives another token, which decoding treats exactly like the first: if that is
accepted, so is the longer one, with the same claims. -/
theorem C69_one_spelling_false (hc : CryptoOk env.crypto) (ht : TokenMem p tok) {a b c : Bytes} (h3 : ThreeParts tok a b c)
    (hv : validateDecodingParams env (some p) = L8W8JWT_SUCCESS) (hk : VerKeyReadable p) (hx : ExpectOk p) (hn : NowOk env.now) (gd : s.good)
    (hd : DecDefined env p tok) {x : Bytes} (hi : ∀ y ∈ x, relevant true y = false ∧ y ≠ 0) (hl : (tok ++ x).length < 2 ^ 63) (hne : x ≠ []) :
    TokenMem (withToken p (tok ++ x)) (tok ++ x) ∧ SameRequest p (withToken p (tok ++ x)) ∧ tok ++ x ≠ tok ∧
    ∃ r h' r' h'', decode env (some p) false false false s h = .ok (r, h') ∧
      decode env (some (withToken p (tok ++ x))) false false false s h = .ok (r', h'') ∧
      r'.rc = r.rc ∧ r'.validation = r.validation ∧
      (r.rc = L8W8JWT_SUCCESS → ∃ ds arr arr', r.claims = some arr ∧ r'.claims = some arr' ∧ Views arr.items ds ∧ Views arr'.items ds) := by
  have hr := respelt_append h3 (fun y hy => (hi y hy).1)
  have hm : TokenMem (withToken p (tok ++ x)) (tok ++ x) := by
    refine withToken_mem ?_ hl
    intro h0
    rcases List.mem_append.mp h0 with h0 | h0
    · exact ht.2.1 h0
    · exact (hi 0 h0).2 rfl
  have hv' := withToken_valid (tok := tok ++ x) hv (by simp [hne])
  obtain ⟨r, h1, _, _, _, e1, -⟩ := C62_decode (s := s) (h := h) hc hv ht gd hk hx hn hd
  obtain ⟨r', h2, _, _, _, e2, -⟩ := C62_decode (s := s) (h := h) (p := withToken p (tok ++ x)) hc hv' hm gd hk hx hn (withToken_defined (respelt_defined hr hd))
  refine ⟨hm, withToken_same, by simpa using hne, r, h1, r', h2, e1, e2, ?_⟩
  obtain ⟨f1, f2, f3⟩ := C69_respelt hc hr withToken_same ht hm hv hv' hx hx hn gd gd e1 e2
  exact ⟨f1.symm, f2.symm, f3⟩

/-- A witness: the good token, and the good token with two exclamation marks. -/
example : verdict (toyDec (mkTok hdr1 pay1 (toyMac hdr1 pay1))) = some (0, some 0) ∧
    verdict (withToken (toyDec []) (mkTok hdr1 pay1 (toyMac hdr1 pay1) ++ str "!!")) = some (0, some 0) := by decide +kernel

/-! ### Other signatures -/

theorem view_append {c c' sig x : Bytes} {n : Nat} (h1 : b64Decode true c = some sig) (h2 : b64Decode true c' = some (sig ++ x)) (hn : n ≤ sig.length) :
    view c n = view c' n := by
  rw [view_take h1 hn, view_take h2 (by simp; omega), List.take_append_of_le_length hn]

/-- C69: for HMAC, RSA-PSS and EdDSA, anything may be appended to a signature of the right length: the answer does not change. -/
theorem C69_lengthened (hr : Resigned tok tok' sig (sig ++ x)) {name : String} {sch : Scheme} (ha : alg? p.alg = some (name, sch))
    {n : Nat} (hl : looksAt env.crypto (verKey p) sch n) (hn : n ≤ sig.length) {rc : Nat} {v : BitVec 32} {ds : List DClaim} :
    Answer env p tok rc v ds ↔ Answer env p tok' rc v ds := by
  obtain ⟨a, b, c, c', h3, h3', d, d'⟩ := hr
  have hb : b64Decode true c = none ↔ b64Decode true c' = none := by simp [d, d']
  have hv : Verifies env p.alg (verKey p) (a ++ 46 :: b) c ↔ Verifies env p.alg (verKey p) (a ++ 46 :: b) c' := by
    unfold Verifies
    simp only [ha]
    cases sch with
    | hmac md =>
      cases hl
      simp only [view_append d d' hn]
      simp [d, d']
    | eddsa =>
      cases hl
      simp only [view_append d d' hn]
      simp [d, d']
    | pss md =>
      obtain ⟨pk, hp, rfl⟩ := hl
      have e : ∀ pk', PublicKey env.crypto (verKey p) pk' → view c (env.crypto.rsaLen pk') = view c' (env.crypto.rsaLen pk') := by
        intro pk' hp'
        obtain rfl := publicKey_unique hp hp'
        exact view_append d d' hn
      constructor
      · rintro ⟨h1, -, -, pk', hash, h4, h5, h6⟩
        exact ⟨h1, _, d', pk', hash, h4, h5, by rwa [← e _ h4]⟩
      · rintro ⟨h1, -, -, pk', hash, h4, h5, h6⟩
        exact ⟨h1, _, d, pk', hash, h4, h5, by rwa [e _ h4]⟩
    | rsa md => cases hl
    | ecdsa md cv n bits => cases hl
  exact ⟨answer_sig h3 h3' hb hv, answer_sig h3' h3 hb.symm hv.symm⟩

theorem ecdsa_answer (hr : Resigned tok tok' sig sig') {name : String} {md : Md} {cv : Curve} {n bits : Nat} (ha : alg? p.alg = some (name, .ecdsa md cv n bits))
    (h1 : octetsValue (sig.take (sig.length / 2)) = octetsValue (sig'.take (sig'.length / 2)))
    (h2 : octetsValue ((sig.drop (sig.length / 2)).take (sig.length / 2)) = octetsValue ((sig'.drop (sig'.length / 2)).take (sig'.length / 2)))
    {rc : Nat} {v : BitVec 32} {ds : List DClaim} : Answer env p tok rc v ds ↔ Answer env p tok' rc v ds := by
  obtain ⟨a, b, c, c', h3, h3', d, d'⟩ := hr
  have hb : b64Decode true c = none ↔ b64Decode true c' = none := by simp [d, d']
  have hv : Verifies env p.alg (verKey p) (a ++ 46 :: b) c ↔ Verifies env p.alg (verKey p) (a ++ 46 :: b) c' := by
    unfold Verifies
    simp only [ha, d, d', Option.some.injEq, exists_eq_left', h1, h2]
  exact ⟨answer_sig h3 h3' hb hv, answer_sig h3' h3 hb.symm hv.symm⟩

/-- C69: for ECDSA, the two numbers may be written with any number of leading zeros (RFC 7518 prescribes their length): the answer
does not change. -/
theorem C69_ecdsa_zeros {r t : Bytes} (hl : r.length = t.length) (m : Nat)
    (hr : Resigned tok tok' (r ++ t) ((List.replicate m 0 ++ r) ++ (List.replicate m 0 ++ t))) {name : String} {md : Md} {cv : Curve} {n bits : Nat}
    (ha : alg? p.alg = some (name, .ecdsa md cv n bits)) {rc : Nat} {v : BitVec 32} {ds : List DClaim} :
    Answer env p tok rc v ds ↔ Answer env p tok' rc v ds := by
  have half : ∀ u w : Bytes, u.length = w.length → (u ++ w).take ((u ++ w).length / 2) = u ∧
      ((u ++ w).drop ((u ++ w).length / 2)).take ((u ++ w).length / 2) = w := by
    intro u w hl
    have e : (u ++ w).length / 2 = u.length := by rw [List.length_append]; omega
    rw [e]
    constructor
    · simp
    · simp [hl]
  have zeros : ∀ (m : Nat) (u : Bytes), octetsValue (List.replicate m 0 ++ u) = octetsValue u := by
    intro m u
    unfold octetsValue
    rw [List.foldl_append]
    congr 1
    induction m with
    | zero => rfl
    | succ m ih => rw [List.replicate_succ, List.foldl_cons]; simpa using ih
  obtain ⟨e1, e2⟩ := half r t hl
  obtain ⟨e3, e4⟩ := half (List.replicate m 0 ++ r) (List.replicate m 0 ++ t) (by simp [hl])
  exact ecdsa_answer hr ha (by rw [e1, e3, zeros m]) (by rw [e2, e4, zeros m])

/-- C69: for ECDSA, a byte may be appended to a signature of even length. -/
theorem C69_ecdsa_odd {x : UInt8} (hl : sig.length % 2 = 0) (hr : Resigned tok tok' sig (sig ++ [x])) {name : String} {md : Md} {cv : Curve} {n bits : Nat}
    (ha : alg? p.alg = some (name, .ecdsa md cv n bits)) {rc : Nat} {v : BitVec 32} {ds : List DClaim} :
    Answer env p tok rc v ds ↔ Answer env p tok' rc v ds := by
  have e : (sig ++ [x]).length / 2 = sig.length / 2 := by simp; omega
  refine ecdsa_answer hr ha ?_ ?_
  · rw [e, List.take_append_of_le_length (by omega)]
  · rw [e, List.drop_append_of_le_length (by omega), List.take_append_of_le_length (by simp; omega)]

/-- Parameters for decoding with ES256. -/
def ecDec (tok : Bytes) : DecParams :=
  { jwt := some (tok ++ [0]), jwtLength := tok.length, alg := 9, verificationKey := some (str "Pub"), verificationKeyLength := 3 }

/-- The first number of the toy signature of a header and payload; the second one is 5. -/
def ecNum (hdr pay : String) : Nat :=
  (toySum 32 (b64 true (str hdr) ++ 46 :: b64 true (str pay))).foldl (fun a c => a * 2 + c.toNat) 0

/-- The signature as prescribed, with numbers of 64 instead of 32 octets, and with another octet: all accepted. -/
example : verdict (ecDec (mkTok hdr1 pay1 (be 32 (ecNum hdr1 pay1) ++ be 32 5))) = some (0, some 0) ∧
    verdict (ecDec (mkTok hdr1 pay1 (be 64 (ecNum hdr1 pay1) ++ be 64 5))) = some (0, some 0) ∧
    verdict (ecDec (mkTok hdr1 pay1 (be 32 (ecNum hdr1 pay1) ++ be 32 5 ++ [77]))) = some (0, some 0) ∧
    verdict (ecDec (mkTok hdr1 pay1 (be 32 (ecNum hdr1 pay1) ++ be 32 6))) = some (0, some 128) := by decide +kernel

/-! ### What is true -/

/-- C69: for HMAC, two tokens with the same header and payload that are both accepted agree in those octets of their signatures
that are compared with the MAC. -/
theorem C69_hmac_octets (hc : CryptoOk env.crypto) {a b c c' : Bytes} (h3 : ThreeParts tok a b c) (h3' : ThreeParts tok' a b c')
    {name : String} {md : Md} (ha : alg? p.alg = some (name, .hmac md))
    (hs : SameRequest p q) (ht : TokenMem p tok) (ht' : TokenMem q tok') {x y z x' y' z' : Bool} {s' : Sched} {k k' : Heap} {r r' : DecOut} {v v' : VRes}
    (he : decode env (some p) x y z s h = .ok (r, h')) (hr : r.rc = L8W8JWT_SUCCESS) (hv : r.validation = some v) (hn : ¬ SigFailed v)
    (he' : decode env (some q) x' y' z' s' k = .ok (r', k')) (hr' : r'.rc = L8W8JWT_SUCCESS) (hv' : r'.validation = some v') (hn' : ¬ SigFailed v') :
    view c md.len = view c' md.len := by
  have ha' : 0 ≤ p.alg ∧ p.alg ≤ 13 := by
    unfold alg? at ha
    split at ha
    · cases ha
    · have := (List.getElem?_eq_some_iff.mp ha).1
      simp [algs] at this
      omega
  obtain ⟨a1, b1, c1, g3, v1⟩ := C28_verified_partial hc ht ha'.1 ha'.2 he hr hv hn
  obtain ⟨a2, b2, c2, g3', v2⟩ := C28_verified_partial hc ht' (hs.alg ▸ ha'.1) (hs.alg ▸ ha'.2) he' hr' hv' hn'
  obtain ⟨rfl, rfl, rfl⟩ := three_unique h3 g3
  obtain ⟨rfl, rfl, rfl⟩ := three_unique h3' g3'
  unfold Verifies at v1 v2
  simp only [← hs.alg, ha] at v2
  simp only [ha] at v1
  obtain ⟨-, -, -, w1⟩ := v1
  obtain ⟨-, -, -, w2⟩ := v2
  rw [hs.key, w2] at w1
  exact (Option.some.inj w1).symm

/-- C69 (partial: for HMAC, and signatures of the prescribed length in the prescribed form; the full statement, for all accepted
tokens, is false, see `C69_one_spelling_false`, `C69_lengthened`): two tokens with the same header and payload that are both accepted,
and whose signatures are the base64url encoding of as many octets as the MAC has, are the same text. -/
theorem C69_hmac_partial (hc : CryptoOk env.crypto) {a b d d' : Bytes} (h3 : ThreeParts tok a b (b64 true d)) (h3' : ThreeParts tok' a b (b64 true d'))
    {name : String} {md : Md} (ha : alg? p.alg = some (name, .hmac md)) (hl : d.length = md.len) (hl' : d'.length = md.len)
    (hs : SameRequest p q) (ht : TokenMem p tok) (ht' : TokenMem q tok') {x y z x' y' z' : Bool} {s' : Sched} {k k' : Heap} {r r' : DecOut} {v v' : VRes}
    (he : decode env (some p) x y z s h = .ok (r, h')) (hr : r.rc = L8W8JWT_SUCCESS) (hv : r.validation = some v) (hn : ¬ SigFailed v)
    (he' : decode env (some q) x' y' z' s' k = .ok (r', k')) (hr' : r'.rc = L8W8JWT_SUCCESS) (hv' : r'.validation = some v') (hn' : ¬ SigFailed v') :
    tok = tok' := by
  have ne : ∀ {d : Bytes}, d.length = md.len → d ≠ [] := by
    intro d hl h0
    subst h0
    cases md <;> cases hl
  have w := C69_hmac_octets hc h3 h3' ha hs ht ht' he hr hv hn he' hr' hv' hn'
  rw [view_take (b64Decode_b64 (ne hl)) (by omega), view_take (b64Decode_b64 (ne hl')) (by omega), ← hl, List.take_length, hl, ← hl',
    List.take_length] at w
  rw [h3.1, h3'.1, w]

end L8w8jwt
