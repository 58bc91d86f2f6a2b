import Verif.Proofs.DecodeSeg
/-!
# Verifying the signature
-/

namespace L8w8jwt
open Spec

variable {s : Sched} {h h' : Heap} {env : Env} {p : DecParams}

/-! ## Text of the key -/

theorem isPrefixOf_iff (a b : Bytes) : a.isPrefixOf b = true ↔ ∃ t, b = a ++ t := by
  rw [List.isPrefixOf_iff_prefix]
  exact ⟨fun ⟨t, h⟩ => ⟨t, h.symm⟩, fun ⟨t, h⟩ => ⟨t, h.symm⟩⟩

theorem hasInfix_iff (pat t : Bytes) : hasInfix pat t = true ↔ contains pat t := by
  induction t with
  | nil =>
    simp only [hasInfix, contains, List.isEmpty_iff]
    constructor
    · rintro rfl; exact ⟨[], [], rfl⟩
    · rintro ⟨a, b, h⟩
      have := congrArg List.length h
      simp at this
      exact List.eq_nil_of_length_eq_zero (by omega)
  | cons c t ih =>
    rw [hasInfix, Bool.or_eq_true, ih, isPrefixOf_iff]
    constructor
    · rintro (⟨r, h⟩ | ⟨a, b, rfl⟩)
      · exact ⟨[], r, by simpa using h⟩
      · exact ⟨c :: a, b, rfl⟩
    · rintro ⟨a, b, h⟩
      cases a with
      | nil => exact Or.inl ⟨b, by simpa using h⟩
      | cons x a =>
        simp only [List.cons_append, List.cons.injEq] at h
        exact Or.inr ⟨a, b, by simpa using h.2⟩

theorem strlen_zero (k r : Bytes) (h0 : 0 ∈ k ∨ ∃ t, r = 0 :: t) : strlen (k ++ r) = .ok (cString k).length ∧
    (k ++ r).take (cString k).length = cString k := by
  induction k with
  | nil =>
    rcases h0 with h0 | ⟨t, rfl⟩
    · cases h0
    · simp [strlen, cString]
  | cons c t ih =>
    by_cases hc : c = 0
    · subst hc; simp [strlen, cString]
    · have h0' : 0 ∈ t ∨ ∃ t, r = 0 :: t := by
        rcases h0 with h0 | h0
        · rcases List.mem_cons.mp h0 with h | h
          · exact absurd h.symm hc
          · exact Or.inl h
        · exact Or.inr h0
      have := ih h0'
      simp only [List.cons_append, strlen, hc, if_false, this.1]
      simp only [cString, List.takeWhile_cons, bne_iff_ne, ne_eq, hc, not_false_eq_true, if_true, List.length_cons,
        List.take_succ_cons] at this ⊢
      exact ⟨rfl, by rw [this.2]⟩

theorem strlen_oob (k : Bytes) (h0 : 0 ∉ k) : strlen k = .error .oobRead := by
  induction k with
  | nil => rfl
  | cons c t ih =>
    simp only [List.mem_cons, not_or] at h0
    simp only [strlen, Ne.symm h0.1, if_false, ih h0.2]
    rfl

def certMark : Bytes := str "-----BEGIN CERTIFICATE-----"

theorem strstr_key (N : Nat) (k pat : Bytes) (hk : k.length < N ∨ 0 ∈ k) :
    strstrFound (padTo N k) pat = .ok (hasInfix pat (cString k)) := by
  unfold strstrFound padTo
  have : 0 ∈ k ∨ ∃ t, List.replicate (N - k.length) (0 : UInt8) = 0 :: t := by
    rcases hk with h | h
    · exact Or.inr ⟨List.replicate (N - k.length - 1) 0, by rw [show N - k.length = (N - k.length - 1) + 1 by omega]; rfl⟩
    · exact Or.inl h
  have := strlen_zero k _ this
  simp only [this.1, bind, Except.bind, this.2]

theorem strstr_key_oob (N : Nat) (k pat : Bytes) (hk : N ≤ k.length) (h0 : 0 ∉ k) : strstrFound (padTo N k) pat = .error .oobRead := by
  unfold strstrFound padTo
  rw [show N - k.length = 0 by omega, List.replicate_zero, List.append_nil, strlen_oob k h0]
  rfl

/-- The public key, computed. -/
def pubKey? (c : Crypto) (k : Bytes) : Option c.PK :=
  if hasInfix certMark (cString k) then c.parseCrt (pemKey k) else c.parsePublicKey (pemKey k)

theorem pubKey?_iff (c : Crypto) (k : Bytes) (pk : c.PK) : PublicKey c k pk ↔ pubKey? c k = some pk := by
  unfold PublicKey pubKey?
  by_cases hi : hasInfix certMark (cString k) = true
  · rw [if_pos hi]
    have := (hasInfix_iff _ _).mp hi
    exact ⟨fun h => h.1 this, fun h => ⟨fun _ => h, fun hn => absurd this hn⟩⟩
  · rw [if_neg hi]
    have : ¬ contains (str "-----BEGIN CERTIFICATE-----") (cString k) := fun hc => hi ((hasInfix_iff _ _).mpr hc)
    exact ⟨fun h => h.2 this, fun h => ⟨fun hn => absurd hn this, fun _ => h⟩⟩

/-! ## Signature buffer -/

theorem take_padTo (N n : Nat) (b : Bytes) (h : n ≤ N) : (padTo N b).take n = (b ++ List.replicate n 0).take n := by
  unfold padTo
  rw [List.take_append, List.take_append, List.take_replicate, List.take_replicate]
  congr 2
  omega

theorem rdN_view (text : Bytes) (n : Nat) : rdN (segBuf text) n =
    if n ≤ (segBuf text).length then .ok (view text n) else .error .oobRead := by
  unfold rdN
  by_cases hn : n ≤ (segBuf text).length
  · rw [if_pos hn, if_pos hn]
    congr 1
    unfold segBuf view
    unfold segBuf at hn
    generalize (b64Decode true text).getD [] ++ leftover true text = w at *
    generalize (text.filter (relevant true)).length / 4 * 3 + 16 = N at *
    by_cases hN : n ≤ N
    · exact take_padTo _ _ _ hN
    · simp only [padTo, List.length_append, List.length_replicate] at hn
      have : n ≤ w.length := by omega
      rw [padTo, List.take_append_of_le_length this, List.take_append_of_le_length this]
  · rw [if_neg hn, if_neg hn]

theorem rdN_sig {text d : Bytes} (hd : b64Decode true text = some d) (n m : Nat) (hn : n + m ≤ d.length) :
    rdN ((segBuf text).drop n) m = .ok ((d.drop n).take m) := by
  have hl := (segBuf_length hd).2
  simp only [List.length_append] at hl
  rw [rdN, if_pos (by simp; omega)]
  congr 1
  rw [segBuf, hd, padTo, Option.getD_some, List.append_assoc, List.drop_append_of_le_length (by omega),
    List.take_append_of_le_length (by simp; omega)]

theorem decode_ne_nil {text d : Bytes} (hd : b64Decode true text = some d) : d ≠ [] := by
  have h2 := hd
  unfold b64Decode at h2
  dsimp only at h2
  split at h2
  · cases h2
  · rename_i hb
    generalize text.filter (relevant true) = r at *
    have : ∃ a b c e t, r ++ List.replicate ((4 - r.length % 4) % 4) 61 = a :: b :: c :: e :: t := by
      have hl : 4 ≤ (r ++ List.replicate ((4 - r.length % 4) % 4) 61).length := by
        simp only [List.length_append, List.length_replicate]; omega
      generalize r ++ List.replicate ((4 - r.length % 4) % 4) 61 = q at hl
      match q, hl with
      | a :: b :: c :: e :: t, _ => exact ⟨a, b, c, e, t, rfl⟩
      | [], h => simp at h
      | [_], h => simp at h
      | [_, _], h => simp at h
      | [_, _, _], h => simp at h
    obtain ⟨a, b, c, e, t, ht⟩ := this
    rw [ht, decodeGroups] at h2
    split at h2
    · cases hg : decodeGroups true t with
      | none => rw [hg] at h2; cases h2
      | some x => rw [hg] at h2; simp only [Option.map_some, Option.some.injEq] at h2; subst h2; simp [groupBytes]
    · split at h2
      · rename_i h1 hle
        simp only [Option.some.injEq] at h2
        subst h2
        intro he
        have := congrArg List.length he
        simp only [List.length_take, groupBytes, List.length_cons, List.length_nil] at this
        generalize List.count 61 [a, b, c, e] = q at *
        omega
      · cases h2

/-! ## The outcome of verification -/

/-- Outcome of the checks, in terms of the specification. -/
def VerPost (env : Env) (p : DecParams) (msg text : Bytes) (r : VerRes) : Prop :=
  match r with
  | .ok true => (∀ rc, ¬ VerFails env p.alg (verKey p) msg rc) ∧ ((alg? p.alg).isSome → Verifies env p.alg (verKey p) msg text)
  | .ok false => (∀ rc, ¬ VerFails env p.alg (verKey p) msg rc) ∧ (alg? p.alg).isSome ∧
      ¬ Verifies env p.alg (verKey p) msg text
  | .error rc => VerFails env p.alg (verKey p) msg rc

theorem PublicKey.unique {c : Crypto} {k : Bytes} {pk pk' : c.PK} (h : PublicKey c k pk) (h' : PublicKey c k pk') : pk = pk' := by
  rw [pubKey?_iff] at h h'
  rw [h] at h'
  exact Option.some.inj h'

/-- A check that cannot be carried out does not succeed. -/
theorem verFails_not {alg : Int} {key msg text : Bytes} {rc : Nat} (h : VerFails env alg key msg rc) : ¬ Verifies env alg key msg text := by
  rintro ⟨hco, sig, -, hv⟩
  cases h with
  | cert hn => exact hn hco
  | @hash name sch md _ ha hp hm =>
    rw [ha] at hv
    cases sch <;> cases hp <;> obtain ⟨pk, hash, -, hx, -⟩ := hv <;> rw [hm] at hx <;> cases hx
  | @key name sch md _ ha hp _ hk =>
    rw [ha] at hv
    cases sch <;> cases hp <;> obtain ⟨pk, hash, hx, -⟩ := hv <;> exact hk _ hx
  | @ec name md cv n bits pk _ ha _ hk he =>
    rw [ha] at hv
    obtain ⟨pk', hash, hx, -, hy, -⟩ := hv
    rw [PublicKey.unique hx hk, he] at hy
    cases hy
  | edOff _ ha he => rw [ha] at hv; have := hv.1; rw [he] at this; cases this
  | edKey _ ha _ hl => rw [ha] at hv; exact hl hv.2.1

/-- The codes with which the check fails. -/
theorem verFails_codes {alg : Int} {key msg : Bytes} {rc : Nat} (h : VerFails env alg key msg rc) :
    rc ≠ L8W8JWT_SUCCESS ∧ rc ≠ L8W8JWT_DECODE_FAILED_INVALID_TOKEN_FORMAT := by
  cases h <;> decide

/-- If the algorithm is unknown, only a certificate can make it fail. -/
theorem verFails_unknown {alg : Int} {key msg : Bytes} {rc : Nat} (h : VerFails env alg key msg rc) (hn : (alg? alg).isNone) :
    rc = L8W8JWT_KEY_PARSE_FAILURE := by
  cases h with
  | cert => rfl
  | hash _ ha => rw [ha] at hn; cases hn
  | key => rfl
  | ec => rfl
  | edOff _ ha => rw [ha] at hn; cases hn
  | edKey _ ha => rw [ha] at hn; cases hn

/-- The code is determined. -/
theorem verFails_unique {alg : Int} {key msg : Bytes} {rc rc' : Nat} (h : VerFails env alg key msg rc) (h' : VerFails env alg key msg rc') :
    rc = rc' := by
  cases h with
  | cert hn =>
    cases h' with
    | cert => rfl
    | hash hc => exact absurd hc hn
    | key hc => exact absurd hc hn
    | ec hc => exact absurd hc hn
    | edOff hc => exact absurd hc hn
    | edKey hc => exact absurd hc hn
  | hash hc ha hp hm =>
    cases h' with
    | cert hn => exact absurd hc hn
    | hash => rfl
    | key _ ha' hp' hm' => rw [ha] at ha'; cases ha'; rw [hp] at hp'; cases hp'; exact absurd hm hm'
    | ec _ ha' hm' => rw [ha] at ha'; cases ha'; cases hp; exact absurd hm hm'
    | edOff _ ha' => rw [ha] at ha'; cases ha'; cases hp
    | edKey _ ha' => rw [ha] at ha'; cases ha'; cases hp
  | key hc ha hp hm =>
    cases h' with
    | cert hn => exact absurd hc hn
    | hash _ ha' hp' hm' => rw [ha] at ha'; cases ha'; rw [hp] at hp'; cases hp'; exact absurd hm' hm
    | key => rfl
    | ec => rfl
    | edOff _ ha' => rw [ha] at ha'; cases ha'; cases hp
    | edKey _ ha' => rw [ha] at ha'; cases ha'; cases hp
  | ec hc ha hm =>
    cases h' with
    | cert hn => exact absurd hc hn
    | hash _ ha' hp' hm' => rw [ha] at ha'; cases ha'; cases hp'; exact absurd hm' hm
    | key => rfl
    | ec => rfl
    | edOff _ ha' => rw [ha] at ha'; cases ha'
    | edKey _ ha' => rw [ha] at ha'; cases ha'
  | edOff hc ha he =>
    cases h' with
    | cert hn => exact absurd hc hn
    | hash _ ha' hp' => rw [ha] at ha'; cases ha'; cases hp'
    | key _ ha' hp' => rw [ha] at ha'; cases ha'; cases hp'
    | ec _ ha' => rw [ha] at ha'; cases ha'
    | edOff => rfl
    | edKey _ _ he' => rw [he] at he'; cases he'
  | edKey hc ha he =>
    cases h' with
    | cert hn => exact absurd hc hn
    | hash _ ha' hp' => rw [ha] at ha'; cases ha'; cases hp'
    | key _ ha' hp' => rw [ha] at ha'; cases ha'; cases hp'
    | ec _ ha' => rw [ha] at ha'; cases ha'
    | edOff _ _ he' => rw [he] at he'; cases he'
    | edKey => rfl

/-- With an algorithm outside the table, nothing but a certificate is looked at. -/
theorem not_verFails_unknown {alg : Int} {key msg : Bytes} (hc : CertOk env.crypto key) (hn : alg? alg = none) (rc : Nat) :
    ¬ VerFails env alg key msg rc := by
  intro h
  cases h with
  | cert hx => exact hx hc
  | hash _ ha => rw [ha] at hn; cases hn
  | key _ ha => rw [ha] at hn; cases hn
  | ec _ ha => rw [ha] at hn; cases hn
  | edOff _ ha => rw [ha] at hn; cases hn
  | edKey _ ha => rw [ha] at hn; cases hn

/-- When the check can be carried out. -/
theorem not_verFails {alg : Int} {key msg : Bytes} {name : String} {sch : Scheme} (hc : CertOk env.crypto key)
    (ha : alg? alg = some (name, sch)) (h1 : ∀ md, sch.prehash = some md → (∃ t, env.crypto.md md msg = some t) ∧ ∃ pk, PublicKey env.crypto key pk)
    (h2 : ∀ md cv n bits, sch = .ecdsa md cv n bits → ∀ pk, PublicKey env.crypto key pk → env.crypto.ecOk pk = true)
    (h3 : sch = .eddsa → env.eddsa = true ∧ (hmacKey key).length = 64) (rc : Nat) : ¬ VerFails env alg key msg rc := by
  intro h
  cases h with
  | cert hx => exact hx hc
  | hash _ ha' hp hm =>
    rw [ha] at ha'; cases ha'
    obtain ⟨⟨t, ht⟩, -⟩ := h1 _ hp
    rw [hm] at ht; cases ht
  | key _ ha' hp _ hk =>
    rw [ha] at ha'; cases ha'
    obtain ⟨-, pk, hpk⟩ := h1 _ hp
    exact hk pk hpk
  | ec _ ha' _ hk he =>
    rw [ha] at ha'; cases ha'
    rw [h2 _ _ _ _ rfl _ hk] at he; cases he
  | edOff _ ha' he => rw [ha] at ha'; cases ha'; rw [(h3 rfl).1] at he; cases he
  | edKey _ ha' _ hl => rw [ha] at ha'; cases ha'; exact hl (h3 rfl).2

/-- Conditions under which verification is defined: there is room for the terminator of the key, the key is of the right
kind, and the buffer of the signature has as many bytes as are read. -/
structure VerSafe (env : Env) (p : DecParams) (text : Bytes) : Prop where
  key : KeyFits (verKey p)
  hmac : ∀ name md, alg? p.alg = some (name, .hmac md) → md.len ≤ (segBuf text).length
  pss : ∀ name md pk, alg? p.alg = some (name, .pss md) → PublicKey env.crypto (verKey p) pk →
    env.crypto.isRsa pk = true ∧ env.crypto.rsaLen pk ≤ (segBuf text).length
  ecdsa : ∀ name md cv n b pk, alg? p.alg = some (name, .ecdsa md cv n b) → PublicKey env.crypto (verKey p) pk →
    env.crypto.isEc pk = true
  eddsa : ∀ name, alg? p.alg = some (name, .eddsa) → env.eddsa = true → (hmacKey (verKey p)).length = 64 → 64 ≤ (segBuf text).length

theorem VerSafe.defined {text d : Bytes} (v : VerSafe env p text) (hd : b64Decode true text = some d) (msg : Bytes) :
    VerDefined env p msg text := by
  have hl : room text = (segBuf text).length := (segBuf_length hd).1.symm
  refine ⟨v.key.imp id List.mem_of_getLast?, fun _ => v.key, fun _ _ _ _ _ _ _ => v.key, ?_, ?_, ?_, ?_⟩
  · intro _ name md h _; rw [hl]; exact v.hmac name md h
  · intro name md pk h _ hk; rw [hl]; exact v.pss name md pk h hk
  · intro name md cv n b pk h _ hk; exact v.ecdsa name md cv n b pk h hk
  · intro _ name h h1 h2; rw [hl]; exact v.eddsa name h h1 h2

theorem verifyHmac_eq {c : Crypto} (hc : CryptoOk c) (alg : Int) (md : Md) (key : Bytes) (kl : Nat) (msg k text : Bytes)
    (hl : 32 + 16 * alg.toNat = md.len) (hk : rdN key (kl - 1) = .ok k) :
    verifyHmac c alg md key kl msg (segBuf text) =
      match c.hmac md k msg with
      | none => .ok (.ok false)
      | some t => if md.len ≤ (segBuf text).length then .ok (.ok (view text md.len == t)) else .error .oobRead := by
  unfold verifyHmac
  rw [hk]
  simp only [bind, Except.bind]
  cases hm : c.hmac md k msg with
  | none => rfl
  | some t =>
    have hlen := hc.hmac _ _ _ _ hm
    have h64 : md.len ≤ 64 := by cases md <;> decide
    simp only [memcmpNe, hl, rdN_view]
    by_cases hr : md.len ≤ (segBuf text).length
    · rw [if_pos hr, if_pos hr]
      have : rdN (padTo 64 t) md.len = .ok t := by
        rw [rdN, padTo_length _ _ (by omega), if_pos h64]
        congr 1
        rw [← hlen]; exact padTo_take _ _
      simp only [bind, Except.bind, this]
      simp [bne]
    · rw [if_neg hr, if_neg hr]; rfl

theorem verificationPk_eq (c : Crypto) (k : Bytes) (hk : k.length ≤ L8W8JWT_MAX_KEY_SIZE) (crt : Option c.PK)
    (hcrt : (hasInfix certMark (cString k) = true ∧ ∃ pk, crt = some pk ∧ c.parseCrt (pemKey k) = some pk) ∨
      (hasInfix certMark (cString k) = false ∧ crt = none)) :
    verificationPk c crt (padTo L8W8JWT_MAX_KEY_SIZE k) (if k.getLast? = some 0 then k.length else k.length + 1) = .ok (pubKey? c k) ∨
    (verificationPk c crt (padTo L8W8JWT_MAX_KEY_SIZE k) (if k.getLast? = some 0 then k.length else k.length + 1) = .error .oobRead ∧
      ¬ KeyFits k) := by
  unfold pubKey? verificationPk
  rcases hcrt with ⟨hi, pk, rfl, hp⟩ | ⟨hi, rfl⟩
  · exact Or.inl (by simp [hi, hp])
  · simp only [hi, Bool.false_eq_true, if_false]
    rw [rdN_pem _ _ hk]
    by_cases hf : k.length < L8W8JWT_MAX_KEY_SIZE ∨ k.getLast? = some 0
    · rw [if_pos hf]; exact Or.inl rfl
    · rw [if_neg hf]; exact Or.inr ⟨rfl, hf⟩

/-- The validated key. -/
theorem validate_verKey (hv : validateDecodingParams env (some p) = L8W8JWT_SUCCESS) :
    ∃ mem, p.verificationKey = some mem ∧ 1 ≤ p.verificationKeyLength ∧ p.verificationKeyLength ≤ L8W8JWT_MAX_KEY_SIZE := by
  unfold validateDecodingParams at hv
  simp only at hv
  cases hk : p.verificationKey with
  | none => rw [hk] at hv; simp at hv
  | some mem =>
    refine ⟨mem, rfl, ?_⟩
    split at hv
    · cases hv
    · split at hv
      · cases hv
      · rename_i h2
        simp only [Bool.or_eq_true, decide_eq_true_eq, not_or] at h2
        omega

theorem signatureDot_eq (a b c junk : Bytes) (ha : 46 ∉ a) (hb : 46 ∉ b) (h0a : 0 ∉ a) (h0b : 0 ∉ b) :
    signatureDot (a ++ 46 :: (b ++ 46 :: (c ++ 0 :: junk))) = .ok (some (a.length + 1 + b.length)) := by
  unfold signatureDot
  rw [strchr_found _ _ _ ha h0a]
  simp only [bind, Except.bind]
  rw [drop_len, strchr_found _ _ _ hb h0b]
  rfl

theorem rd_last (N : Nat) (k : Bytes) (h1 : 1 ≤ k.length) (h2 : k.length ≤ N)
    (hn : (if k.getLast? = some 0 then k.length else k.length + 1) ≤ N) :
    rd (padTo N k) ((if k.getLast? = some 0 then k.length else k.length + 1) - 1) = .ok 0 := by
  have hlt : (if k.getLast? = some 0 then k.length else k.length + 1) - 1 < (padTo N k).length := by
    rw [padTo_length _ _ h2]; split <;> rename_i hz <;> simp only [hz, if_true, if_false] at hn <;> omega
  rw [rd_ok _ _ hlt]
  congr 1
  by_cases hz : k.getLast? = some 0
  · simp only [if_pos hz, padTo]
    rw [List.getLast?_eq_getElem?] at hz
    obtain ⟨h5, h6⟩ := List.getElem?_eq_some_iff.mp hz
    rw [List.getElem_append_left h5, h6]
  · simp only [if_neg hz, padTo]
    rw [List.getElem_append_right (by omega)]
    simp

theorem hexLoop_key (env : Env) (k : Bytes) (hk : (hmacKey k).length = 64) (h1 : 1 ≤ k.length) (h2 : k.length ≤ L8W8JWT_MAX_KEY_SIZE) :
    (if k.getLast? = some 0 then k.length else k.length + 1) = 65 ∧ rd (padTo L8W8JWT_MAX_KEY_SIZE k) 64 = .ok 0 ∧
    hexstr2bin env.charSigned (some (padTo L8W8JWT_MAX_KEY_SIZE k)) 65 (some 33) 33 true =
      .ok { rc := 0, written := hexLoop env.charSigned (hmacKey k) ++ [0] } := by
  have h3 := rdN_hmac L8W8JWT_MAX_KEY_SIZE k h1 h2
  have hkl : (if k.getLast? = some 0 then k.length else k.length + 1) = 65 := by
    rw [hmacKey_eq, List.length_take] at hk
    split at hk
    · rename_i hz; rw [if_pos hz]; omega
    · rename_i hz; rw [if_neg hz]; omega
  have hlast := rd_last L8W8JWT_MAX_KEY_SIZE k h1 h2 (by rw [hkl]; decide)
  rw [hkl] at h3 hlast
  refine ⟨hkl, hlast, ?_⟩
  simp only [show 65 - 1 = 64 by rfl] at h3 hlast
  simp only [hexstr2bin, show ¬ (65 = 0) by decide, if_false, show 65 - 1 = 64 by rfl, hlast, bind, Except.bind]
  simp only [ne_eq, not_true_eq_false, if_false, h3]
  simp [hexLoop_length, hk]

theorem verifyEd_post (env : Env) (k : Bytes) (h1 : 1 ≤ k.length) (h2 : k.length ≤ L8W8JWT_MAX_KEY_SIZE) (msg text : Bytes) :
    (env.eddsa = true ∧ (hmacKey k).length = 64 ∧
      verifyEd env (padTo L8W8JWT_MAX_KEY_SIZE k) (if k.getLast? = some 0 then k.length else k.length + 1) msg (segBuf text) =
        if 64 ≤ (segBuf text).length then .ok (.ok (env.crypto.edVerify (view text 64) msg (laxHex env.charSigned (hmacKey k)))) else .error .oobRead) ∨
    (∃ rc, ((env.eddsa = false ∧ rc = L8W8JWT_UNSUPPORTED_ALG) ∨
        (env.eddsa = true ∧ (hmacKey k).length ≠ 64 ∧ rc = L8W8JWT_WRONG_KEY_TYPE)) ∧
      verifyEd env (padTo L8W8JWT_MAX_KEY_SIZE k) (if k.getLast? = some 0 then k.length else k.length + 1) msg (segBuf text) =
        .ok (.error rc)) := by
  unfold verifyEd
  cases he : env.eddsa with
  | false => exact Or.inr ⟨L8W8JWT_UNSUPPORTED_ALG, Or.inl ⟨rfl, rfl⟩, by simp⟩
  | true =>
    simp only [Bool.not_true, Bool.false_eq_true, if_false, true_and]
    have hmax : L8W8JWT_MAX_KEY_SIZE = 8192 := rfl
    have hlt : 64 < (padTo L8W8JWT_MAX_KEY_SIZE k).length := by rw [padTo_length _ _ h2, hmax]; omega
    by_cases hk : (hmacKey k).length = 64
    · left
      refine ⟨hk, ?_⟩
      obtain ⟨hkl, hb, hh⟩ := hexLoop_key env k hk h1 h2
      rw [hkl, hh, hb]
      have hp : (padTo 33 (hexLoop env.charSigned (hmacKey k) ++ [0])).take 32 = hexLoop env.charSigned (hmacKey k) := by
        rw [padTo, List.append_assoc, List.take_append_of_le_length (by rw [hexLoop_length, hk]; decide),
          List.take_of_length_le (by rw [hexLoop_length, hk]; decide)]
      simp only [bind, Except.bind, rdN_view]
      rw [if_neg (by simp), if_neg (by simp), hp, hexLoop_lax]
      by_cases hr : 64 ≤ (segBuf text).length
      · rw [if_pos hr, if_pos hr]
      · rw [if_neg hr, if_neg hr]
    · right
      refine ⟨L8W8JWT_WRONG_KEY_TYPE, Or.inr ⟨hk, rfl⟩, ?_⟩
      rw [rd_ok _ _ hlt]
      simp only [bind, Except.bind]
      have hk' := hk
      rw [hmacKey_eq, List.length_take] at hk'
      by_cases hkl : (if k.getLast? = some 0 then k.length else k.length + 1) = 64
      · have hlast := rd_last L8W8JWT_MAX_KEY_SIZE k h1 h2 (by rw [hkl]; decide)
        rw [hkl] at hlast ⊢
        rw [if_neg (by simp)]
        simp only [hexstr2bin, show ¬ (64 = 0) by decide, if_false, hlast, bind, Except.bind]
        simp
      · have h65 : ¬ ((if k.getLast? = some 0 then k.length else k.length + 1) = 65) := by
          intro h65; rw [h65] at hk'; split at h65 <;> omega
        rw [if_pos ⟨hkl, fun hx => h65 hx.1⟩]

/-! ## Putting it together -/

theorem alg_cases (alg : Int) : (alg? alg = none ∧ decide (0 ≤ alg ∧ alg ≤ 13) = false) ∨
    ∃ name sch, alg? alg = some (name, sch) ∧ match sch with
      | .hmac md => (alg = 0 ∨ alg = 1 ∨ alg = 2) ∧ decMd alg = some md ∧ 32 + 16 * alg.toNat = md.len ∧ hashedAlg alg = false
      | .rsa md => (alg = 3 ∨ alg = 4 ∨ alg = 5) ∧ decMd alg = some md ∧ hashedAlg alg = true
      | .pss md => (alg = 6 ∨ alg = 7 ∨ alg = 8) ∧ decMd alg = some md ∧ hashedAlg alg = true
      | .ecdsa md _ _ _ => (alg = 9 ∨ alg = 10 ∨ alg = 11 ∨ alg = 12) ∧ decMd alg = some md ∧ hashedAlg alg = true
      | .eddsa => alg = 13 ∧ hashedAlg alg = false := by
  rcases alg?_range alg with ⟨j, hj⟩ | ⟨h1, h2⟩
  · right
    have : alg = 0 ∨ alg = 1 ∨ alg = 2 ∨ alg = 3 ∨ alg = 4 ∨ alg = 5 ∨ alg = 6 ∨ alg = 7 ∨ alg = 8 ∨ alg = 9 ∨ alg = 10 ∨ alg = 11 ∨
        alg = 12 ∨ alg = 13 := by have := j.isLt; omega
    clear hj
    rcases this with rfl | rfl | rfl | rfl | rfl | rfl | rfl | rfl | rfl | rfl | rfl | rfl | rfl | rfl <;> exact ⟨_, _, rfl, by decide⟩
  · left
    refine ⟨h1, ?_⟩
    simp only [decide_eq_false_iff_not]
    omega

/-- The key of a certificate or of a public key, and what depends on it. -/
theorem rwp_verPk {β : Type} (c : Crypto) (k : Bytes) (hk : k.length ≤ L8W8JWT_MAX_KEY_SIZE) (crt : Option c.PK)
    (hcrt : (hasInfix certMark (cString k) = true ∧ ∃ pk, crt = some pk ∧ c.parseCrt (pemKey k) = some pk) ∨
      (hasInfix certMark (cString k) = false ∧ crt = none)) (f : Option c.PK → Res β) (Q : β → Prop) (E : UB → Prop)
    (hE : KeyFits k ∨ ∀ e, E e) (hf : rwp (f (pubKey? c k)) Q E) :
    rwp (verificationPk c crt (padTo L8W8JWT_MAX_KEY_SIZE k) (if k.getLast? = some 0 then k.length else k.length + 1) >>= f) Q E := by
  rw [rwp_bind]
  rcases verificationPk_eq c k hk crt hcrt with h | ⟨h, hn⟩
  · rw [h]; exact hf
  · rw [h]; exact (hE.resolve_left hn) _

section
variable (alg : Int) (crt : Option env.crypto.PK) (key : Bytes) (kl : Nat) (msg hash sig : Bytes) (n : Nat)

theorem switch_hmac {md : Md} (h : alg = 0 ∨ alg = 1 ∨ alg = 2) (hm : decMd alg = some md) :
    verifySwitch env alg crt key kl msg hash sig n = verifyHmac env.crypto alg md key kl msg sig := by
  rcases h with rfl | rfl | rfl <;> cases hm <;> rfl
theorem switch_rsa {md : Md} (h : alg = 3 ∨ alg = 4 ∨ alg = 5) (hm : decMd alg = some md) :
    verifySwitch env alg crt key kl msg hash sig n = verifyRsa env.crypto md crt key kl hash sig n := by
  rcases h with rfl | rfl | rfl <;> cases hm <;> rfl
theorem switch_pss {md : Md} (h : alg = 6 ∨ alg = 7 ∨ alg = 8) (hm : decMd alg = some md) :
    verifySwitch env alg crt key kl msg hash sig n = verifyPss env.crypto md crt key kl hash sig := by
  rcases h with rfl | rfl | rfl <;> cases hm <;> rfl
theorem switch_ecdsa (h : alg = 9 ∨ alg = 10 ∨ alg = 11 ∨ alg = 12) :
    verifySwitch env alg crt key kl msg hash sig n = verifyEcdsa env.crypto crt key kl hash sig n := by
  rcases h with rfl | rfl | rfl | rfl <;> rfl
theorem switch_ed (h : alg = 13) :
    verifySwitch env alg crt key kl msg hash sig n = verifyEd env key kl msg sig := by
  subst h; rfl
end

/-- The part of `verifyBody` after the certificate. -/
def afterCrt (env : Env) (p : DecParams) (crt : Option env.crypto.PK) (key : Bytes) (keyLength : Nat) (sig : Bytes)
    (sigLength : Nat) : Res VerRes := do
  let jwt ← deref p.jwt
  let dot ← signatureDot jwt
  match dot with
  | none => .ok (.error L8W8JWT_DECODE_FAILED_INVALID_TOKEN_FORMAT)
  | some dot => do
    let msg ← rdN jwt dot
    match verifyHash env.crypto p.alg msg with
    | none => .ok (.error L8W8JWT_SHA2_FAILURE)
    | some hash => verifySwitch env p.alg crt key keyLength msg hash sig sigLength

theorem verifyBody_post (hc : CryptoOk env.crypto) (hv : validateDecodingParams env (some p) = L8W8JWT_SUCCESS)
    {tok a b c d : Bytes} (ht : TokenMem p tok) (h3 : ThreeParts tok a b c) (hd : b64Decode true c = some d) (E : UB → Prop)
    (hE : (VerKeyReadable p ∧ VerDefined env p (a ++ 46 :: b) c) ∨ ∀ e, E e) :
    rwp (verifyBody env p (segBuf c) d.length) (VerPost env p (a ++ 46 :: b) c) E := by
  obtain ⟨mem, hm, hk1, hk2⟩ := validate_verKey hv
  unfold verifyBody
  rw [rwp_bind]
  by_cases hkr : p.verificationKeyLength ≤ mem.length
  case neg =>
    have : loadKey p.verificationKey p.verificationKeyLength = .error .oobRead := by
      rw [hm]
      simp only [loadKey, deref, bind, Except.bind, rdN]
      rw [if_neg hkr]
    rw [this]
    rcases hE with ⟨h, -⟩ | h
    · exact absurd (h mem hm) hkr
    · exact h _
  have hE : VerDefined env p (a ++ 46 :: b) c ∨ ∀ e, E e := by
    rcases hE with ⟨-, h⟩ | h
    · exact Or.inl h
    · exact Or.inr h
  have hkk : verKey p = mem.take p.verificationKeyLength := by simp [verKey, hm]
  have hkl : (verKey p).length = p.verificationKeyLength := by rw [hkk]; simp [hkr]
  rw [hm, loadKey_eq _ _ hk1 hk2 hkr, ← hkk, ← hkl]
  rw [← hkl] at hk1 hk2
  simp only [rwp_ok]
  -- certificate
  have hrm : (segBuf c).length = room c := (segBuf_length hd).1
  unfold loadCrt
  simp only [rwp_bind]
  by_cases hz : (verKey p).length < L8W8JWT_MAX_KEY_SIZE ∨ 0 ∈ verKey p
  case neg =>
    simp only [not_or] at hz
    rw [strstr_key_oob _ _ _ (by omega) hz.2]
    refine hE.resolve_left ?_ _
    intro h
    rcases h.nul with h | h
    · exact hz.1 h
    · exact hz.2 h
  rw [strstr_key _ _ _ hz]
  simp only [rwp_ok]
  -- the message
  obtain ⟨⟨junk, hj⟩, h0, -, -⟩ := ht
  obtain ⟨rfl, ha, hb⟩ := h3
  have h0a : (0 : UInt8) ∉ a := fun hx => h0 (by simp [hx])
  have h0b : (0 : UInt8) ∉ b := fun hx => h0 (by simp [hx])
  have hmsg : rdN (a ++ 46 :: (b ++ 46 :: (c ++ 0 :: junk))) (a.length + 1 + b.length) = .ok (a ++ 46 :: b) := by
    rw [show a ++ 46 :: (b ++ 46 :: (c ++ 0 :: junk)) = (a ++ 46 :: b) ++ (46 :: (c ++ 0 :: junk)) by simp,
      show a.length + 1 + b.length = (a ++ 46 :: b).length by simp; omega, rdN, if_pos (by simp), List.take_left]
  -- everything after the certificate
  have main : ∀ crt : Option env.crypto.PK, CertOk env.crypto (verKey p) →
      ((hasInfix certMark (cString (verKey p)) = true ∧ ∃ pk, crt = some pk ∧ env.crypto.parseCrt (pemKey (verKey p)) = some pk) ∨
        (hasInfix certMark (cString (verKey p)) = false ∧ crt = none)) →
      rwp (afterCrt env p crt (padTo L8W8JWT_MAX_KEY_SIZE (verKey p))
        (if (verKey p).getLast? = some 0 then (verKey p).length else (verKey p).length + 1) (segBuf c) d.length)
        (VerPost env p (a ++ 46 :: b) c) E := by
    intro crt hco hcrt
    unfold afterCrt
    rw [hj]
    simp only [List.append_assoc, List.cons_append, deref]
    simp only [bind, Except.bind]
    rw [signatureDot_eq _ _ _ _ ha hb h0a h0b]
    simp only
    rw [hmsg]
    simp only
    unfold verifyHash
    rcases alg_cases p.alg with ⟨hn, hr⟩ | ⟨name, sch, hs, hsch⟩
    · -- unknown algorithm: accepted
      have hr : ¬ (0 ≤ p.alg ∧ p.alg ≤ 13) := by simpa using hr
      have hh : hashedAlg p.alg = false := by
        simp only [hashedAlg, L8W8JWT_ALG_ES256, L8W8JWT_ALG_ES384, L8W8JWT_ALG_ES512, L8W8JWT_ALG_RS256, L8W8JWT_ALG_RS384,
          L8W8JWT_ALG_RS512, L8W8JWT_ALG_PS256, L8W8JWT_ALG_PS384, L8W8JWT_ALG_PS512, L8W8JWT_ALG_ES256K, Bool.or_eq_false_iff,
          decide_eq_false_iff_not]
        omega
      rw [if_neg (by simp [hh])]
      simp only [verifySwitch, L8W8JWT_ALG_HS256, L8W8JWT_ALG_HS384, L8W8JWT_ALG_HS512, L8W8JWT_ALG_ES256, L8W8JWT_ALG_ES384, L8W8JWT_ALG_ES512, L8W8JWT_ALG_RS256, L8W8JWT_ALG_RS384,
          L8W8JWT_ALG_RS512, L8W8JWT_ALG_PS256, L8W8JWT_ALG_PS384, L8W8JWT_ALG_PS512, L8W8JWT_ALG_ES256K, L8W8JWT_ALG_ED25519]
      rw [if_neg (by omega), if_neg (by omega), if_neg (by omega), if_neg (by omega), if_neg (by omega)]
      exact ⟨not_verFails_unknown hco hn, fun hx => by rw [hn] at hx; cases hx⟩
    · have hsome : (alg? p.alg).isSome := by rw [hs]; rfl
      cases sch with
      | hmac md =>
        obtain ⟨hal, hmd, hlen, hh⟩ := hsch
        rw [if_neg (by simp [hh])]
        simp only
        rw [switch_hmac _ _ _ _ _ _ _ _ hal hmd, verifyHmac_eq hc _ _ _ _ _ _ _ hlen (rdN_hmac _ _ hk1 hk2)]
        cases hm : env.crypto.hmac md (hmacKey (verKey p)) (a ++ 46 :: b) with
        | none =>
          refine ⟨not_verFails hco hs (fun _ hx => by cases hx) (fun _ _ _ _ hx => by cases hx) (fun hx => by cases hx), hsome, fun hv => ?_⟩
          obtain ⟨-, sig, -, hv⟩ := hv
          rw [hs] at hv
          simp only at hv
          rw [hm] at hv; cases hv
        | some t =>
          simp only
          by_cases hroom : md.len ≤ (segBuf c).length
          · rw [if_pos hroom]
            by_cases he : view c md.len = t
            · subst he
              rw [show (view c md.len == view c md.len) = true by simp]
              refine ⟨not_verFails hco hs (fun _ hx => by cases hx) (fun _ _ _ _ hx => by cases hx) (fun hx => by cases hx), fun _ => ⟨hco, d, hd, ?_⟩⟩
              rw [hs]; exact hm
            · rw [show (view c md.len == t) = false by simpa using he]
              refine ⟨not_verFails hco hs (fun _ hx => by cases hx) (fun _ _ _ _ hx => by cases hx) (fun hx => by cases hx), hsome, fun hv => ?_⟩
              obtain ⟨-, sig, -, hv⟩ := hv
              rw [hs] at hv
              simp only at hv
              rw [hm] at hv
              exact he (Option.some.inj hv).symm
          · rw [if_neg hroom]
            rcases hE with h | h
            · exact absurd (h.hmac hco _ _ hs (by rw [hm]; simp)) (by rwa [← hrm])
            · exact h _
      | rsa md =>
        obtain ⟨hal, hmd, hh⟩ := hsch
        rw [if_pos hh, hmd]
        simp only
        rw [hashOf_eq hc]
        cases hm : env.crypto.md md (a ++ 46 :: b) with
        | none =>
          exact .hash hco hs rfl hm
        | some hash =>
          simp only
          rw [switch_rsa _ _ _ _ _ _ _ _ hal hmd]
          unfold verifyRsa
          refine rwp_verPk env.crypto _ hk2 crt hcrt _ _ _ (hE.imp (fun h => h.pem hco _ _ _ hs rfl (by rw [hm]; simp)) id) ?_
          cases hp : pubKey? env.crypto (verKey p) with
          | none =>
            exact .key hco hs rfl (by rw [hm]; simp) (fun pk hx => by rw [pubKey?_iff, hp] at hx; cases hx)
          | some pk =>
            simp only [rwp_bind]
            have := rdN_sig hd 0 d.length (by omega)
            simp only [List.drop_zero, List.take_length] at this
            rw [this]
            simp only [rwp_ok]
            cases hver : env.crypto.pkVerify pk md hash d with
            | true =>
              refine ⟨not_verFails hco hs (fun _ hx => by cases hx; exact ⟨⟨_, hm⟩, _, (pubKey?_iff _ _ _).mpr hp⟩) (fun _ _ _ _ hx => by cases hx) (fun hx => by cases hx), fun _ => ⟨hco, d, hd, ?_⟩⟩
              rw [hs]; exact ⟨pk, hash, (pubKey?_iff _ _ _).mpr hp, hm, hver⟩
            | false =>
              refine ⟨not_verFails hco hs (fun _ hx => by cases hx; exact ⟨⟨_, hm⟩, _, (pubKey?_iff _ _ _).mpr hp⟩) (fun _ _ _ _ hx => by cases hx) (fun hx => by cases hx), hsome, fun hv => ?_⟩
              obtain ⟨-, sig, hsig, hv⟩ := hv
              rw [hs] at hv
              obtain ⟨pk', hash', hx, hy, hz⟩ := hv
              rw [pubKey?_iff, hp] at hx
              cases hx
              rw [hm] at hy; cases hy
              rw [hd] at hsig; cases hsig
              rw [hver] at hz; cases hz
      | pss md =>
        obtain ⟨hal, hmd, hh⟩ := hsch
        rw [if_pos hh, hmd]
        simp only
        rw [hashOf_eq hc]
        cases hm : env.crypto.md md (a ++ 46 :: b) with
        | none =>
          exact .hash hco hs rfl hm
        | some hash =>
          simp only
          rw [switch_pss _ _ _ _ _ _ _ _ hal hmd]
          unfold verifyPss
          refine rwp_verPk env.crypto _ hk2 crt hcrt _ _ _ (hE.imp (fun h => h.pem hco _ _ _ hs rfl (by rw [hm]; simp)) id) ?_
          cases hp : pubKey? env.crypto (verKey p) with
          | none =>
            exact .key hco hs rfl (by rw [hm]; simp) (fun pk hx => by rw [pubKey?_iff, hp] at hx; cases hx)
          | some pk =>
            simp only
            cases hrsa : env.crypto.isRsa pk with
            | false =>
              simp only [Bool.not_false, if_true, rwp_error]
              rcases hE with h | h
              · have := (h.pss _ _ pk hs (by rw [hm]; simp) ((pubKey?_iff _ _ _).mpr hp)).1
                rw [hrsa] at this; cases this
              · exact h _
            | true =>
              simp only [Bool.not_true, Bool.false_eq_true, if_false, rwp_bind, rdN_view]
              by_cases hroom : env.crypto.rsaLen pk ≤ (segBuf c).length
              · rw [if_pos hroom]
                simp only [rwp_ok]
                cases hver : env.crypto.pssVerify pk md hash (view c (env.crypto.rsaLen pk)) with
                | true =>
                  refine ⟨not_verFails hco hs (fun _ hx => by cases hx; exact ⟨⟨_, hm⟩, _, (pubKey?_iff _ _ _).mpr hp⟩) (fun _ _ _ _ hx => by cases hx) (fun hx => by cases hx), fun _ => ⟨hco, d, hd, ?_⟩⟩
                  rw [hs]; exact ⟨pk, hash, (pubKey?_iff _ _ _).mpr hp, hm, hver⟩
                | false =>
                  refine ⟨not_verFails hco hs (fun _ hx => by cases hx; exact ⟨⟨_, hm⟩, _, (pubKey?_iff _ _ _).mpr hp⟩) (fun _ _ _ _ hx => by cases hx) (fun hx => by cases hx), hsome, fun hv => ?_⟩
                  obtain ⟨-, sig, hsig, hv⟩ := hv
                  rw [hs] at hv
                  obtain ⟨pk', hash', hx, hy, hz⟩ := hv
                  rw [pubKey?_iff, hp] at hx
                  cases hx
                  rw [hm] at hy; cases hy
                  rw [hver] at hz; cases hz
              · rw [if_neg hroom]
                rcases hE with h | h
                · exact absurd (h.pss _ _ pk hs (by rw [hm]; simp) ((pubKey?_iff _ _ _).mpr hp)).2 (by rwa [← hrm])
                · exact h _
      | ecdsa md cv n bits =>
        obtain ⟨hal, hmd, hh⟩ := hsch
        rw [if_pos hh, hmd]
        simp only
        rw [hashOf_eq hc]
        cases hm : env.crypto.md md (a ++ 46 :: b) with
        | none =>
          exact .hash hco hs rfl hm
        | some hash =>
          simp only
          rw [switch_ecdsa _ _ _ _ _ _ _ _ hal]
          unfold verifyEcdsa
          refine rwp_verPk env.crypto _ hk2 crt hcrt _ _ _ (hE.imp (fun h => h.pem hco _ _ _ hs rfl (by rw [hm]; simp)) id) ?_
          cases hp : pubKey? env.crypto (verKey p) with
          | none =>
            exact .key hco hs rfl (by rw [hm]; simp) (fun pk hx => by rw [pubKey?_iff, hp] at hx; cases hx)
          | some pk =>
            simp only
            cases hec : env.crypto.isEc pk with
            | false =>
              simp only [Bool.not_false, if_true, rwp_error]
              rcases hE with h | h
              · have := h.ecdsa _ _ _ _ _ pk hs (by rw [hm]; simp) ((pubKey?_iff _ _ _).mpr hp)
                rw [hec] at this; cases this
              · exact h _
            | true =>
              simp only [Bool.not_true, Bool.false_eq_true, if_false]
              cases hok : env.crypto.ecOk pk with
              | false =>
                simp only [Bool.not_false, if_true, rwp_ok]
                exact .ec hco hs (by rw [hm]; simp) ((pubKey?_iff _ _ _).mpr hp) hok
              | true =>
                simp only [Bool.not_true, Bool.false_eq_true, if_false, rwp_bind]
                have e1 := rdN_sig hd 0 (d.length / 2) (by omega)
                have e2 := rdN_sig hd (d.length / 2) (d.length / 2) (by omega)
                simp only [List.drop_zero] at e1
                rw [e1, rwp_ok, e2, rwp_ok, rwp_ok]
                cases hver : env.crypto.ecdsaVerify pk hash (mpiRead (d.take (d.length / 2)))
                    (mpiRead ((d.drop (d.length / 2)).take (d.length / 2))) with
                | true =>
                  refine ⟨not_verFails hco hs (fun _ hx => by cases hx; exact ⟨⟨_, hm⟩, _, (pubKey?_iff _ _ _).mpr hp⟩) (fun _ _ _ _ hx pk' hk' => by rw [PublicKey.unique hk' ((pubKey?_iff _ _ _).mpr hp)]; exact hok) (fun hx => by cases hx), fun _ => ⟨hco, d, hd, ?_⟩⟩
                  rw [hs]; exact ⟨pk, hash, (pubKey?_iff _ _ _).mpr hp, hm, hok, hver⟩
                | false =>
                  refine ⟨not_verFails hco hs (fun _ hx => by cases hx; exact ⟨⟨_, hm⟩, _, (pubKey?_iff _ _ _).mpr hp⟩) (fun _ _ _ _ hx pk' hk' => by rw [PublicKey.unique hk' ((pubKey?_iff _ _ _).mpr hp)]; exact hok) (fun hx => by cases hx), hsome, fun hv => ?_⟩
                  obtain ⟨-, sig, hsig, hv⟩ := hv
                  rw [hs] at hv
                  obtain ⟨pk', hash', hx, hy, -, hz⟩ := hv
                  rw [pubKey?_iff, hp] at hx
                  cases hx
                  rw [hm] at hy; cases hy
                  rw [hd] at hsig; cases hsig
                  have : env.crypto.ecdsaVerify pk hash (mpiRead (d.take (d.length / 2)))
                    (mpiRead ((d.drop (d.length / 2)).take (d.length / 2))) = true := hz
                  rw [hver] at this; cases this
      | eddsa =>
        obtain ⟨hal, hh⟩ := hsch
        rw [if_neg (by simp [hh])]
        simp only
        rw [switch_ed _ _ _ _ _ _ _ _ hal]
        rcases verifyEd_post env (verKey p) hk1 hk2 (a ++ 46 :: b) c with ⟨he, hk, heq⟩ | ⟨rc, hrc, heq⟩
        · rw [heq]
          by_cases hroom : 64 ≤ (segBuf c).length
          · rw [if_pos hroom, rwp_ok]
            cases hver : env.crypto.edVerify (view c 64) (a ++ 46 :: b) (laxHex env.charSigned (hmacKey (verKey p))) with
            | true =>
              refine ⟨not_verFails hco hs (fun _ hx => by cases hx) (fun _ _ _ _ hx => by cases hx) (fun _ => ⟨he, hk⟩), fun _ => ⟨hco, d, hd, ?_⟩⟩
              rw [hs]; exact ⟨he, hk, hver⟩
            | false =>
              refine ⟨not_verFails hco hs (fun _ hx => by cases hx) (fun _ _ _ _ hx => by cases hx) (fun _ => ⟨he, hk⟩), hsome, fun hv => ?_⟩
              obtain ⟨-, sig, -, hv⟩ := hv
              rw [hs] at hv
              rw [hv.2.2] at hver
              cases hver
          · rw [if_neg hroom]
            rcases hE with h | h
            · exact absurd (h.eddsa hco _ hs he hk) (by rwa [← hrm])
            · exact h _
        · rw [heq]
          rcases hrc with ⟨he, rfl⟩ | ⟨he, hk, rfl⟩
          · exact .edOff hco hs he
          · exact .edKey hco hs he hk
  by_cases hi : hasInfix certMark (cString (verKey p)) = true
  · have hi' : hasInfix (str "-----BEGIN CERTIFICATE-----") (cString (verKey p)) = true := hi
    rw [if_pos hi']
    simp only [rwp_bind]
    rw [rdN_pem _ _ hk2]
    by_cases hf : (verKey p).length < L8W8JWT_MAX_KEY_SIZE ∨ (verKey p).getLast? = some 0
    · rw [if_pos hf, rwp_ok]
      cases hp : env.crypto.parseCrt (pemKey (verKey p)) with
      | none =>
        refine .cert (fun hx => ?_)
        have := hx ((hasInfix_iff _ _).mp hi)
        rw [hp] at this; cases this
      | some pk => exact main (some pk) (fun _ => by rw [hp]; rfl) (Or.inl ⟨hi, pk, rfl, hp⟩)
    · rw [if_neg hf]
      exact hE.resolve_left (fun h => hf (h.cert ((hasInfix_iff _ _).mp hi))) _
  · have hi' : ¬ hasInfix (str "-----BEGIN CERTIFICATE-----") (cString (verKey p)) = true := hi
    rw [if_neg hi']
    exact main none (fun hx => absurd ((hasInfix_iff _ _).mpr hx) hi) (Or.inr ⟨by simpa using hi, rfl⟩)

/-! ## What must hold if verification is defined -/

theorem verDefined_unknown {msg text : Bytes} (hz : (verKey p).length < 8192 ∨ 0 ∈ verKey p)
    (hcert : contains (str "-----BEGIN CERTIFICATE-----") (cString (verKey p)) → KeyFits (verKey p)) (ha : alg? p.alg = none) :
    VerDefined env p msg text := by
  refine ⟨hz, hcert, ?_, ?_, ?_, ?_, ?_⟩
  · intro _ name sch md h; rw [ha] at h; cases h
  · intro _ name md h; rw [ha] at h; cases h
  · intro name md pk h; rw [ha] at h; cases h
  · intro name md cv n b pk h; rw [ha] at h; cases h
  · intro _ name h; rw [ha] at h; cases h

theorem verDefined_bad {msg text : Bytes} (hz : (verKey p).length < 8192 ∨ 0 ∈ verKey p)
    (hcert : contains (str "-----BEGIN CERTIFICATE-----") (cString (verKey p)) → KeyFits (verKey p))
    (hc : ¬ CertOk env.crypto (verKey p)) : VerDefined env p msg text := by
  have hk : ∀ pk, ¬ PublicKey env.crypto (verKey p) pk := fun pk h => hc (fun hx => by rw [h.1 hx]; rfl)
  exact ⟨hz, hcert, fun h => absurd h hc, fun h => absurd h hc, fun _ _ pk _ _ h => absurd h (hk pk),
    fun _ _ _ _ _ pk _ _ h => absurd h (hk pk), fun h => absurd h hc⟩

theorem verDefined_known {msg text : Bytes} {name : String} {sch : Scheme} (hz : (verKey p).length < 8192 ∨ 0 ∈ verKey p)
    (hcert : contains (str "-----BEGIN CERTIFICATE-----") (cString (verKey p)) → KeyFits (verKey p))
    (ha : alg? p.alg = some (name, sch)) (hpem : ∀ md, sch.prehash = some md → env.crypto.md md msg ≠ none → KeyFits (verKey p))
    (h : match sch with
      | .hmac md => env.crypto.hmac md (hmacKey (verKey p)) msg ≠ none → md.len ≤ room text
      | .rsa _ => True
      | .pss md => env.crypto.md md msg ≠ none → ∀ pk, PublicKey env.crypto (verKey p) pk →
          env.crypto.isRsa pk = true ∧ env.crypto.rsaLen pk ≤ room text
      | .ecdsa md _ _ _ => env.crypto.md md msg ≠ none → ∀ pk, PublicKey env.crypto (verKey p) pk → env.crypto.isEc pk = true
      | .eddsa => env.eddsa = true → (hmacKey (verKey p)).length = 64 → 64 ≤ room text) :
    VerDefined env p msg text := by
  refine ⟨hz, hcert, ?_, ?_, ?_, ?_, ?_⟩
  · intro _ name sch md h; rw [ha] at h; cases h; exact hpem md
  · intro _ name md h'; rw [ha] at h'; cases h'; exact h
  · intro name md pk h' hm; rw [ha] at h'; cases h'; exact h hm pk
  · intro name md cv n b pk h' hm; rw [ha] at h'; cases h'; exact h hm pk
  · intro _ name h'; rw [ha] at h'; cases h'; exact h

theorem rwp_verPk_needs {β : Type} (c : Crypto) (k : Bytes) (hk : k.length ≤ L8W8JWT_MAX_KEY_SIZE) (crt : Option c.PK)
    (hcrt : (hasInfix certMark (cString k) = true ∧ ∃ pk, crt = some pk ∧ c.parseCrt (pemKey k) = some pk) ∨
      (hasInfix certMark (cString k) = false ∧ crt = none)) (f : Option c.PK → Res β) (Q : β → Prop)
    (hcert : contains (str "-----BEGIN CERTIFICATE-----") (cString k) → KeyFits k)
    (hf : KeyFits k → rwp (f (pubKey? c k)) Q (fun _ => True)) :
    rwp (verificationPk c crt (padTo L8W8JWT_MAX_KEY_SIZE k) (if k.getLast? = some 0 then k.length else k.length + 1) >>= f) Q
      (fun _ => True) := by
  rw [rwp_bind]
  by_cases hfit : KeyFits k
  · rcases verificationPk_eq c k hk crt hcrt with h | ⟨h, hn⟩
    · rw [h]; exact hf hfit
    · exact absurd hfit hn
  · rcases hcrt with ⟨hi, -⟩ | ⟨hi, rfl⟩
    · exact absurd (hcert ((hasInfix_iff _ _).mp hi)) hfit
    · unfold verificationPk
      simp only
      rw [rdN_pem _ _ hk, if_neg (show ¬ (k.length < L8W8JWT_MAX_KEY_SIZE ∨ k.getLast? = some 0) from hfit)]
      trivial

theorem rwp_all {α : Type} (m : Res α) {Q : α → Prop} (h : ∀ x, Q x) : rwp m Q (fun _ => True) := by
  cases m with
  | ok x => exact h x
  | error e => trivial

/-- If verification is defined, the conditions of `VerDefined` hold. -/
theorem verifyBody_needs (hc : CryptoOk env.crypto) (hv : validateDecodingParams env (some p) = L8W8JWT_SUCCESS)
    {tok a b c d : Bytes} (ht : TokenMem p tok) (h3 : ThreeParts tok a b c) (hd : b64Decode true c = some d) :
    rwp (verifyBody env p (segBuf c) d.length) (fun _ => VerKeyReadable p ∧ VerDefined env p (a ++ 46 :: b) c) (fun _ => True) := by
  obtain ⟨mem, hm, hk1, hk2⟩ := validate_verKey hv
  unfold verifyBody
  rw [rwp_bind]
  by_cases hkr : p.verificationKeyLength ≤ mem.length
  case neg =>
    have : loadKey p.verificationKey p.verificationKeyLength = .error .oobRead := by
      rw [hm]
      simp only [loadKey, deref, bind, Except.bind, rdN]
      rw [if_neg hkr]
    rw [this]
    trivial
  have hread : VerKeyReadable p := fun mem' hm' => by rw [hm] at hm'; cases hm'; exact hkr
  have hkk : verKey p = mem.take p.verificationKeyLength := by simp [verKey, hm]
  have hkl : (verKey p).length = p.verificationKeyLength := by rw [hkk]; simp [hkr]
  rw [hm, loadKey_eq _ _ hk1 hk2 hkr, ← hkk, ← hkl]
  rw [← hkl] at hk1 hk2
  simp only [rwp_ok]
  have hrm : (segBuf c).length = room c := (segBuf_length hd).1
  unfold loadCrt
  simp only [rwp_bind]
  by_cases hz : (verKey p).length < L8W8JWT_MAX_KEY_SIZE ∨ 0 ∈ verKey p
  case neg =>
    simp only [not_or] at hz
    rw [strstr_key_oob _ _ _ (by omega) hz.2]
    trivial
  rw [strstr_key _ _ _ hz]
  simp only [rwp_ok]
  obtain ⟨⟨junk, hj⟩, h0, -, -⟩ := ht
  obtain ⟨rfl, ha, hb⟩ := h3
  have h0a : (0 : UInt8) ∉ a := fun hx => h0 (by simp [hx])
  have h0b : (0 : UInt8) ∉ b := fun hx => h0 (by simp [hx])
  have hmsg : rdN (a ++ 46 :: (b ++ 46 :: (c ++ 0 :: junk))) (a.length + 1 + b.length) = .ok (a ++ 46 :: b) := by
    rw [show a ++ 46 :: (b ++ 46 :: (c ++ 0 :: junk)) = (a ++ 46 :: b) ++ (46 :: (c ++ 0 :: junk)) by simp,
      show a.length + 1 + b.length = (a ++ 46 :: b).length by simp; omega, rdN, if_pos (by simp), List.take_left]
  have main : ∀ crt : Option env.crypto.PK, CertOk env.crypto (verKey p) →
      (contains (str "-----BEGIN CERTIFICATE-----") (cString (verKey p)) → KeyFits (verKey p)) →
      ((hasInfix certMark (cString (verKey p)) = true ∧ ∃ pk, crt = some pk ∧ env.crypto.parseCrt (pemKey (verKey p)) = some pk) ∨
        (hasInfix certMark (cString (verKey p)) = false ∧ crt = none)) →
      rwp (afterCrt env p crt (padTo L8W8JWT_MAX_KEY_SIZE (verKey p))
        (if (verKey p).getLast? = some 0 then (verKey p).length else (verKey p).length + 1) (segBuf c) d.length)
        (fun _ => VerKeyReadable p ∧ VerDefined env p (a ++ 46 :: b) c) (fun _ => True) := by
    intro crt hco hcert hcrt
    unfold afterCrt
    rw [hj]
    simp only [List.append_assoc, List.cons_append, deref]
    simp only [bind, Except.bind]
    rw [signatureDot_eq _ _ _ _ ha hb h0a h0b]
    simp only
    rw [hmsg]
    simp only
    unfold verifyHash
    rcases alg_cases p.alg with ⟨hn, hr⟩ | ⟨name, sch, hs, hsch⟩
    · exact rwp_all _ (fun _ => ⟨hread, verDefined_unknown hz hcert hn⟩)
    · cases sch with
      | hmac md =>
        obtain ⟨hal, hmd, hlen, hh⟩ := hsch
        rw [if_neg (by simp [hh])]
        simp only
        rw [switch_hmac _ _ _ _ _ _ _ _ hal hmd, verifyHmac_eq hc _ _ _ _ _ _ _ hlen (rdN_hmac _ _ hk1 hk2)]
        cases hm : env.crypto.hmac md (hmacKey (verKey p)) (a ++ 46 :: b) with
        | none =>
          exact rwp_all _ (fun _ => ⟨hread, verDefined_known hz hcert hs (fun _ h => by cases h) (fun h => absurd hm h)⟩)
        | some t =>
          simp only
          by_cases hroom : md.len ≤ (segBuf c).length
          · exact rwp_all _ (fun _ => ⟨hread, verDefined_known hz hcert hs (fun _ h => by cases h) (fun _ => by rwa [← hrm])⟩)
          · rw [if_neg hroom]; trivial
      | rsa md =>
        obtain ⟨hal, hmd, hh⟩ := hsch
        rw [if_pos hh, hmd]
        simp only
        rw [hashOf_eq hc]
        cases hm : env.crypto.md md (a ++ 46 :: b) with
        | none =>
          exact ⟨hread, verDefined_known hz hcert hs (fun _ h hx => by cases h; exact absurd hm hx) trivial⟩
        | some hash =>
          simp only
          rw [switch_rsa _ _ _ _ _ _ _ _ hal hmd]
          unfold verifyRsa
          refine rwp_verPk_needs env.crypto _ hk2 crt hcrt _ _ hcert (fun hf => ?_)
          exact rwp_all _ (fun _ => ⟨hread, verDefined_known hz hcert hs (fun _ _ _ => hf) trivial⟩)
      | pss md =>
        obtain ⟨hal, hmd, hh⟩ := hsch
        rw [if_pos hh, hmd]
        simp only
        rw [hashOf_eq hc]
        cases hm : env.crypto.md md (a ++ 46 :: b) with
        | none =>
          exact ⟨hread, verDefined_known hz hcert hs (fun _ h hx => by cases h; exact absurd hm hx) (fun hx => absurd hm hx)⟩
        | some hash =>
          simp only
          rw [switch_pss _ _ _ _ _ _ _ _ hal hmd]
          unfold verifyPss
          refine rwp_verPk_needs env.crypto _ hk2 crt hcrt _ _ hcert (fun hf => ?_)
          cases hp : pubKey? env.crypto (verKey p) with
          | none =>
            exact ⟨hread, verDefined_known hz hcert hs (fun _ _ _ => hf) (fun _ pk hx => by rw [pubKey?_iff, hp] at hx; cases hx)⟩
          | some pk =>
            simp only
            cases hrsa : env.crypto.isRsa pk with
            | false => simp only [Bool.not_false, if_true, rwp_error]
            | true =>
              simp only [Bool.not_true, Bool.false_eq_true, if_false, rwp_bind, rdN_view]
              by_cases hroom : env.crypto.rsaLen pk ≤ (segBuf c).length
              · refine rwp_all _ (fun _ => ⟨hread, verDefined_known hz hcert hs (fun _ _ _ => hf) (fun _ pk' hx => ?_)⟩)
                rw [pubKey?_iff, hp] at hx
                cases hx
                exact ⟨hrsa, by rwa [← hrm]⟩
              · rw [if_neg hroom]; trivial
      | ecdsa md cv n bits =>
        obtain ⟨hal, hmd, hh⟩ := hsch
        rw [if_pos hh, hmd]
        simp only
        rw [hashOf_eq hc]
        cases hm : env.crypto.md md (a ++ 46 :: b) with
        | none =>
          exact ⟨hread, verDefined_known hz hcert hs (fun _ h hx => by cases h; exact absurd hm hx) (fun hx => absurd hm hx)⟩
        | some hash =>
          simp only
          rw [switch_ecdsa _ _ _ _ _ _ _ _ hal]
          unfold verifyEcdsa
          refine rwp_verPk_needs env.crypto _ hk2 crt hcrt _ _ hcert (fun hf => ?_)
          cases hp : pubKey? env.crypto (verKey p) with
          | none =>
            exact ⟨hread, verDefined_known hz hcert hs (fun _ _ _ => hf) (fun _ pk hx => by rw [pubKey?_iff, hp] at hx; cases hx)⟩
          | some pk =>
            simp only
            cases hec : env.crypto.isEc pk with
            | false => simp only [Bool.not_false, if_true, rwp_error]
            | true =>
              refine rwp_all _ (fun _ => ⟨hread, verDefined_known hz hcert hs (fun _ _ _ => hf) (fun _ pk' hx => ?_)⟩)
              rw [pubKey?_iff, hp] at hx
              cases hx
              exact hec
      | eddsa =>
        obtain ⟨hal, hh⟩ := hsch
        rw [if_neg (by simp [hh])]
        simp only
        rw [switch_ed _ _ _ _ _ _ _ _ hal]
        rcases verifyEd_post env (verKey p) hk1 hk2 (a ++ 46 :: b) c with ⟨he, hk, heq⟩ | ⟨rc, hrc, heq⟩
        · rw [heq]
          by_cases hroom : 64 ≤ (segBuf c).length
          · exact rwp_all _ (fun _ => ⟨hread, verDefined_known hz hcert hs (fun _ h => by cases h) (fun _ _ => by rwa [← hrm])⟩)
          · rw [if_neg hroom]; trivial
        · refine rwp_all _ (fun _ => ⟨hread, verDefined_known hz hcert hs (fun _ h => by cases h) (fun h1 h2 => ?_)⟩)
          rcases hrc with ⟨he, -⟩ | ⟨-, hk, -⟩
          · rw [he] at h1; cases h1
          · exact absurd h2 hk
  by_cases hi : hasInfix certMark (cString (verKey p)) = true
  · have hi' : hasInfix (str "-----BEGIN CERTIFICATE-----") (cString (verKey p)) = true := hi
    have hcon := (hasInfix_iff _ _).mp hi
    rw [if_pos hi']
    simp only [rwp_bind]
    rw [rdN_pem _ _ hk2]
    by_cases hf : (verKey p).length < L8W8JWT_MAX_KEY_SIZE ∨ (verKey p).getLast? = some 0
    · rw [if_pos hf, rwp_ok]
      cases hp : env.crypto.parseCrt (pemKey (verKey p)) with
      | none =>
        refine ⟨hread, verDefined_bad hz (fun _ => hf) (fun hx => ?_)⟩
        have := hx hcon
        rw [hp] at this; cases this
      | some pk => exact main (some pk) (fun _ => by rw [hp]; rfl) (fun _ => hf) (Or.inl ⟨hi, pk, rfl, hp⟩)
    · rw [if_neg hf]; trivial
  · have hi' : ¬ hasInfix (str "-----BEGIN CERTIFICATE-----") (cString (verKey p)) = true := hi
    have hcon : ¬ contains (str "-----BEGIN CERTIFICATE-----") (cString (verKey p)) := fun hx => hi ((hasInfix_iff _ _).mpr hx)
    rw [if_neg hi']
    exact main none (fun hx => absurd hx hcon) (fun hx => absurd hx hcon) (Or.inr ⟨by simpa using hi, rfl⟩)

/-- Verification is defined exactly under the conditions of `VerDefined`. -/
theorem verifyBody_defined_iff (hc : CryptoOk env.crypto) (hv : validateDecodingParams env (some p) = L8W8JWT_SUCCESS)
    {tok a b c d : Bytes} (ht : TokenMem p tok) (h3 : ThreeParts tok a b c) (hd : b64Decode true c = some d) :
    (∃ r, verifyBody env p (segBuf c) d.length = .ok r) ↔ VerKeyReadable p ∧ VerDefined env p (a ++ 46 :: b) c := by
  constructor
  · rintro ⟨r, hr⟩
    have := verifyBody_needs hc hv ht h3 hd
    rw [hr] at this
    exact this
  · intro h
    obtain ⟨r, e, -⟩ := rwp_iff_exists.mp (verifyBody_post hc hv ht h3 hd (fun _ => False) (Or.inl h))
    exact ⟨r, e⟩

end L8w8jwt
