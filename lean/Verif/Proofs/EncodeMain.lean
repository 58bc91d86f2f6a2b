import Verif.Proofs.Encode
import Verif.Proofs.Base64Dec
import Verif.Proofs.JsonText
/-!
# The outcome of `l8w8jwt_encode` as a whole
-/

namespace L8w8jwt
open Spec

variable {s : Sched} {h h' : Heap}

/-- What is in the header segment. -/
def HeaderIs (s : Sched) (p : EncParams) (name : String) (hdr : Bytes) : Prop :=
  let base := str "{" ++ commaSep (headerBase name)
  hdr.length ≤ (base ++ headerTail p (extra p.headerClaims p.headerClaimsCount)).length ∧
  (s.noGrowFail ∨ (base ++ headerTail p (extra p.headerClaims p.headerClaimsCount)).length ≤ 256 →
    (hdr = base ++ headerTail p (extra p.headerClaims p.headerClaimsCount) ∨ hdr = base ++ headerTail p []) ∧
    ((∀ k, s.failAlloc k = false) → hdr = base ++ headerTail p (extra p.headerClaims p.headerClaimsCount)))

/-- What is in the payload segment. -/
def PayloadIs (s : Sched) (p : EncParams) (pay : Bytes) : Prop :=
  let full := payloadForm p (registeredWith timeText p) (extra p.payloadClaims p.payloadClaimsCount)
  pay.length ≤ full.length ∧
  (s.noGrowFail ∨ full.length ≤ 256 →
    (∃ r e, (r = registeredWith timeText p ∨ r = []) ∧
      (e = extra p.payloadClaims p.payloadClaimsCount ∨ e = []) ∧ pay = payloadForm p r e) ∧
    ((∀ k, s.failAlloc k = false) → pay = full))

theorem dot_not_mem_b64 (d : Bytes) : (46 : UInt8) ∉ b64 true d := by
  intro hm
  obtain ⟨i, hi, he⟩ := b64_mem true d 46 hm
  have key : ∀ i : Fin 64, (46 : UInt8) ≠ alphabet true i.val := by decide +kernel
  exact key ⟨i, hi⟩ he

theorem b64_inj (a b : Bytes) (h : b64 true a = b64 true b) : a = b := by
  have hl : ∀ d : Bytes, b64 true d = [] → d = [] := by
    intro d hd
    have := b64_length true d
    rw [hd] at this
    cases d with
    | nil => rfl
    | cons x t => simp at this; omega
  by_cases ha : a = []
  · subst ha; exact (hl b h.symm).symm
  by_cases hb : b = []
  · subst hb; exact hl a h
  have e1 := b64Decode_text true a ha
  have e2 := b64Decode_text true b hb
  simp only [b64Text, if_true] at e1 e2
  rw [h, e2] at e1
  exact (Option.some.inj e1).symm

/-- A separator determines the parts around it. -/
theorem split_unique (x : UInt8) (a b c d : Bytes) (ha : x ∉ a) (hc : x ∉ c) (h : a ++ x :: b = c ++ x :: d) :
    a = c ∧ b = d := by
  induction a generalizing c with
  | nil =>
    cases c with
    | nil => simpa using h
    | cons y t => simp at h hc; exact absurd h.1 hc.1
  | cons y t ih =>
    cases c with
    | nil => simp at h ha; exact absurd h.1.symm ha.1
    | cons z u =>
      simp only [List.cons_append, List.cons.injEq] at h
      simp only [List.mem_cons, not_or] at ha hc
      obtain ⟨e1, e2⟩ := ih u ha.2 hc.2 h.2
      exact ⟨by rw [h.1, e1], e2⟩

theorem wp_encode_with (env : Env) (p : EncParams) (hok : TextsOk env p) (SQ : Bytes → Bytes → Prop) (SE : Bytes → Nat → Prop)
    (E : UB → Prop) (hv : validateEncodingParams (some p) = L8W8JWT_SUCCESS)
    (hs : ∀ msg, (alg? p.alg).isSome → rwp (sigOf env p msg) (SigPost (SQ msg) (SE msg)) E)
    (hsz : ∀ m b, SQ m b → b.length ≤ 4096)
    (hE : ((env.smallStack = false ∨ ∀ k, s.failAlloc k = false) ∧ SizesOk p) ∨ ∀ e, E e) :
    wp (encode env (some p)) s h (EncPost s h p (fun b => ∃ name sch, alg? p.alg = some (name, sch) ∧ HeaderIs s p name b)
      (PayloadIs s p) SQ SE) E := by
  refine wp_encode env p _ _ _ _ E hv ?_ ?_ hs ?_
  · intro name sch h1 ha pre u
    refine wp_mono (wp_headerText env p pre hok.header) ?_ (fun _ h => h.elim)
    rintro b h2 ⟨k, t, rfl, l, n⟩
    have lu := u.1
    refine ⟨k, name, sch, ha, ?_, fun gr => ?_⟩
    · simp only [List.length_append] at *; omega
    · simp only [List.length_append] at gr lu u
      have hu := u.2 (gr.imp id (by simp only [List.length_append]; omega))
      obtain ⟨n, g⟩ := n (gr.imp id (by omega))
      refine ⟨?_, fun hf => by rw [hu, g hf]⟩
      rw [hu]
      rcases n with e | e <;> simp [e]
  · intro h1
    exact wp_mono (wp_payloadText env p hok) (fun _ _ h => h) (fun _ h => h.elim)
  · refine hE.imp ?_ id
    rintro ⟨a3, a4, a5⟩
    refine ⟨?_, ?_, a3⟩
    · rintro b (⟨name, sch, ha, hb⟩ | hb)
      · have h1 := hb.1
        have h2 := a5 name sch ha
        unfold b64Fits writtenHeader at *
        omega
      · have h1 := hb.1
        unfold b64Fits writtenPayload at *
        omega
    · intro m b hb
      have := hsz m b hb
      unfold b64Fits
      show 4 * ((b.length + 2) / 3) ≤ 2147483647
      omega

theorem wp_encode_texts (env : Env) (hc : CryptoOk env.crypto) (p : EncParams) (hok : TextsOk env p) (E : UB → Prop)
    (hv : validateEncodingParams (some p) = L8W8JWT_SUCCESS)
    (hE : (KeyReadable p ∧ (env.crypto.seedOk = true → needsPem p.alg → PemFits p) ∧ (env.smallStack = false ∨ ∀ k, s.failAlloc k = false) ∧ SizesOk p) ∨ ∀ e, E e) :
    wp (encode env (some p)) s h (EncPost s h p (fun b => ∃ name sch, alg? p.alg = some (name, sch) ∧ HeaderIs s p name b)
      (PayloadIs s p) (Emits env p) (fun msg _ => ¬ CanSign env p msg)) E :=
  wp_encode_with env p hok _ _ E hv
    (fun msg ha => sigOf_post hc p msg E hv ha (hE.imp (fun h => ⟨h.1, h.2.1⟩) id)) (fun _ _ h => h.2.1) (hE.imp (fun h => h.2.2) id)

/-- A PEM key that fills the buffer without terminator is read past the end of the buffer. -/
theorem sigOf_oob (env : Env) (p : EncParams) (msg : Bytes) (hv : validateEncodingParams (some p) = L8W8JWT_SUCCESS)
    (hk : KeyReadable p) (hn : needsPem p.alg) (hf : ¬ PemFits p) (hs : env.crypto.seedOk = true) :
    sigOf env p msg = .error .oobRead := by
  obtain ⟨⟨mem, hm, hl⟩, hpw⟩ := hk
  obtain ⟨mem', hm', hn1, hn2⟩ := validate_key hv
  have hkb : keyBytes p = mem.take p.secretKeyLength := by simp [keyBytes, hm]
  have hkl : (keyBytes p).length = p.secretKeyLength := by simp [hkb, hl]
  have hload : loadKey p.secretKey p.secretKeyLength = .ok (padTo L8W8JWT_MAX_KEY_SIZE (keyBytes p),
      if (keyBytes p).getLast? = some 0 then (keyBytes p).length else (keyBytes p).length + 1) := by
    rw [hm, loadKey_eq _ _ hn1 hn2 hl, ← hkb, hkl]
  have hpe := rdN_pem L8W8JWT_MAX_KEY_SIZE (keyBytes p) (by omega)
  rw [if_neg (show ¬ ((keyBytes p).length < L8W8JWT_MAX_KEY_SIZE ∨ (keyBytes p).getLast? = some 0) from hf)] at hpe
  simp only [sigOf, hload, bind, Except.bind]
  generalize padTo L8W8JWT_MAX_KEY_SIZE (keyBytes p) = key at *
  generalize (if (keyBytes p).getLast? = some 0 then (keyBytes p).length else (keyBytes p).length + 1) = kl at *
  have hpa : pwArg p.secretKeyPw p.secretKeyPwLength = .ok (password p) := by
    rcases pwArg_eq p with h | ⟨m, h1, h2⟩
    · exact h
    · have := hpw m h1; omega
  unfold signSwitch
  simp only [hs, Bool.not_true, Bool.false_eq_true, if_false]
  obtain ⟨hn3, hn4⟩ := hn
  rcases alg?_range p.alg with ⟨⟨j, hj⟩, hje⟩ | ⟨-, h⟩
  case inr => omega
  simp only at hje
  match j, hj with
  | 0, _ => omega
  | 1, _ => omega
  | 2, _ => omega
  | 3, _ | 4, _ | 5, _ =>
    rw [if_neg (by rw [hje]; decide), if_pos (by rw [hje]; decide), hje, hpa]
    simp only [bind, Except.bind, signRsa, hpe]; rfl
  | 6, _ | 7, _ | 8, _ =>
    rw [if_neg (by rw [hje]; decide), if_neg (by rw [hje]; decide), if_pos (by rw [hje]; decide), hje, hpa]
    simp only [bind, Except.bind, signPss, hpe]; rfl
  | 9, _ | 10, _ | 11, _ | 12, _ =>
    rw [if_neg (by rw [hje]; decide), if_neg (by rw [hje]; decide), if_neg (by rw [hje]; decide),
      if_pos (by rw [hje]; decide), hje, hpa]
    simp only [bind, Except.bind, signEcdsa, hpe]; rfl
  | 13, _ => omega

/-- Whatever the parameters: what success and failure mean. -/
theorem wp_encode_any (env : Env) (p : EncParams) (hv : validateEncodingParams (some p) = L8W8JWT_SUCCESS) :
    wp (encode env (some p)) s h (EncPost s h p (fun _ => True) (fun _ => True) (fun _ _ => True) (fun _ _ => True))
      (fun _ => True) := by
  refine wp_encode env p _ _ _ _ _ hv ?_ ?_ ?_ (Or.inr fun _ => trivial)
  · intro name sch h1 ha pre u
    exact wp_mono (keeps_headerText env p pre s h1) (fun _ _ k => ⟨k, trivial⟩) (fun _ h => h)
  · intro h1
    exact wp_mono (keeps_payloadText env p s h1) (fun _ _ k => ⟨k, trivial⟩) (fun _ h => h)
  · intro msg ha
    exact sigOf_rc env p msg

/-- Whatever the texts: what the signature is. -/
theorem wp_encode_sig (env : Env) (hc : CryptoOk env.crypto) (p : EncParams)
    (hv : validateEncodingParams (some p) = L8W8JWT_SUCCESS) :
    wp (encode env (some p)) s h (EncPost s h p (fun _ => True) (fun _ => True) (Emits env p) (fun msg _ => ¬ CanSign env p msg))
      (fun _ => True) := by
  refine wp_encode env p _ _ _ _ _ hv ?_ ?_ ?_ (Or.inr fun _ => trivial)
  · intro name sch h1 ha pre u
    exact wp_mono (keeps_headerText env p pre s h1) (fun _ _ k => ⟨k, trivial⟩) (fun _ h => h)
  · intro h1
    exact wp_mono (keeps_payloadText env p s h1) (fun _ _ k => ⟨k, trivial⟩) (fun _ h => h)
  · intro msg ha
    exact sigOf_post hc p msg _ hv ha (Or.inr fun _ => trivial)

/-- A signature is never empty. -/
theorem emits_ne {env : Env} (hc : CryptoOk env.crypto) {p : EncParams} {msg sig : Bytes} (hs : Emits env p msg sig) : sig ≠ [] := by
  obtain ⟨hk, -, hs⟩ := hs
  have h4 : sig.length = 0 → sig = [] := fun h => List.eq_nil_of_length_eq_zero h
  intro he
  subst he
  cases ha : alg? p.alg with
  | none => rw [ha] at hs; simp only [Signs, ha] at hs
  | some a =>
    obtain ⟨name, sch⟩ := a
    rcases alg?_range p.alg with ⟨j, hj⟩ | ⟨h1, -⟩
    case inr => rw [h1] at ha; cases ha
    cases sch with
    | pss md =>
      rw [ha] at hs
      obtain ⟨pk, hash, full, e1, e2, e3, e4, e5⟩ := hs
      simp only [KeySuits, ha] at hk
      obtain ⟨pk', p1, -, p2⟩ := hk
      rw [e1] at p1; cases p1
      have := congrArg List.length e4
      rw [List.length_take] at this
      simp at this
      omega
    | hmac md =>
      rw [ha] at hs; simp only [Signs, ha] at hs
      have := hc.hmac _ _ _ _ hs
      cases md <;> cases this
    | rsa md =>
      rw [ha] at hs; simp only [Signs, ha] at hs
      obtain ⟨pk, hash, -, -, e⟩ := hs
      exact hc.sign _ _ _ _ e rfl
    | ecdsa md c n b =>
      rw [ha] at hs; simp only [Signs, ha] at hs
      obtain ⟨pk, hash, r, s, -, -, -, -, -, e⟩ := hs
      have := congrArg List.length e
      simp only [List.length_nil, List.length_append, be_length] at this
      have key : ∀ j : Fin 14, (match alg? (j.val : Int) with
        | some (_, .ecdsa _ _ n _) => decide (n ≠ 0)
        | _ => true) = true := by decide +kernel
      have := key j
      rw [← hj, ha] at this
      simp at this
      omega
    | eddsa => rw [ha] at hs; cases hs.1

/-! ## The texts as JSON -/

/-- Text of a member given raw. -/
def pairText (kv : Bytes × Bytes) : Bytes := 34 :: (kv.1 ++ 34 :: 58 :: kv.2)

theorem jmembers_commaSep (l : List (Bytes × Bytes)) (hne : l ≠ []) (h : ∀ kv ∈ l, JStr kv.1 ∧ JText .value kv.2) :
    JMembers (commaSep (l.map pairText)) l := by
  induction l with
  | nil => exact absurd rfl hne
  | cons kv t ih =>
    obtain ⟨h1, h2⟩ := h kv (by simp)
    cases t with
    | nil =>
      have := JMembers.mem jws_nil h1 jws_nil jws_nil h2 jws_nil
      simpa [commaSep, pairText] using this
    | cons kv2 t =>
      have := JMembers.mems jws_nil h1 jws_nil jws_nil h2 jws_nil (ih (by simp) (fun kv hkv => h kv (by simp [hkv])))
      simpa [commaSep, pairText, str] using this

theorem jobject_commaSep (l : List (Bytes × Bytes)) (h : ∀ kv ∈ l, JStr kv.1 ∧ JText .value kv.2) :
    JObject (str "{" ++ commaSep (l.map pairText) ++ str "}") l := by
  by_cases hne : l = []
  · subst hne
    exact JObject.empty (a := []) (w := []) (b := []) jws_nil jws_nil jws_nil
  · have := JObject.full (a := []) (b := []) jws_nil (jmembers_commaSep l hne h) jws_nil
    simpa [str] using this

theorem jobject_scan {t : Bytes} {l : List (Bytes × Bytes)} (h : JObject t l) : Scan.done (scan .out t) := by
  cases h with
  | empty ha hw hb =>
    refine scan_ws _ _ _ ha _ (fun s' hs => ?_) (Or.inl rfl)
    obtain rfl : s' = .out := by simpa using hs
    rw [scan_out _ (Or.inl rfl) _ _ (by decide)]
    refine scan_ws _ _ _ hw _ (fun s' hs => ?_) (Or.inl rfl)
    obtain rfl : s' = .out := by simpa using hs
    rw [scan_out _ (Or.inl rfl) _ _ (by decide)]
    exact scan_noquote _ (Or.inl rfl) _ (jws_noquote hb)
  | full ha hm hb =>
    refine scan_ws _ _ _ ha _ (fun s' hs => ?_) (Or.inl rfl)
    obtain rfl : s' = .out := by simpa using hs
    rw [scan_out _ (Or.inl rfl) _ _ (by decide)]
    refine scan_done_append _ _ _ (jtext_scan (jmembers_text hm)) _ fun s' hs => ?_
    rw [scan_out _ hs _ _ (by decide)]
    exact scan_noquote _ (Or.inl rfl) _ (jws_noquote hb)

theorem natText_head (n : Nat) (h : n ≠ 0) : (natText n).head? ≠ some 48 := by
  fun_induction natText n with
  | case1 n hn =>
    simp only [List.head?_cons, ne_eq, Option.some.injEq]
    intro he
    have := congrArg UInt8.toNat he
    simp [UInt8.toNat_ofNat'] at this
    omega
  | case2 n hn ih =>
    have := ih (by omega)
    cases hx : natText (n / 10) with
    | nil =>
      have h1 := natText_length (n / 10) (n / 10 + 1) (by omega) (Nat.lt_trans (Nat.lt_succ_self _) (Nat.lt_pow_self (by omega)))
      rw [hx] at h1; simp at h1
    | cons c t => rw [hx] at this; simpa using this

theorem jnum_natText (n : Nat) (sgn : Bytes) (hs : sgn = [] ∨ sgn = [45]) : JNum (sgn ++ natText n) := by
  refine ⟨sgn, natText n, [], [], by simp, hs, ?_, Or.inl rfl, Or.inl rfl⟩
  by_cases h0 : n = 0
  · subst h0; left; simp [natText]
  · right
    refine ⟨⟨?_, fun c hc => ?_⟩, natText_head n h0⟩
    · intro hx
      have h1 := natText_length n (n + 1) (by omega) (Nat.lt_trans (Nat.lt_succ_self _) (Nat.lt_pow_self (by omega)))
      rw [hx] at h1; simp at h1
    · have := natText_digit n c hc
      rw [UInt8.le_iff_toNat_le, UInt8.le_iff_toNat_le]
      exact this

theorem jnum_intText (t : Int) : JNum (intText t) := by
  unfold intText
  split
  · exact jnum_natText _ _ (Or.inr rfl)
  · exact jnum_natText _ [] (Or.inl rfl)

theorem jtext_quoted (t : Bytes) : JText .value (str "\"" ++ escape t ++ str "\"") := by
  simpa [str] using JText.str (jStr_escape t)

theorem jstr_key (k : String) (h : ∀ c ∈ str k, 97 ≤ c.toNat ∧ c.toNat ≤ 122) : JStr (str k) := by
  rw [← escape_plain (str k) h]; exact jStr_escape _

theorem timePair_text (k : String) (t : Int) : (timePair k t).map pairText = timeMember intText k t := by
  unfold timePair timeMember
  split <;> simp [pairText, str]

theorem strPair_text (k : String) (v : Ptr) (n : Nat) : (strPair k v n).map pairText = strMember k v n := by
  unfold strPair strMember
  split <;> simp [pairText, str]

theorem registeredPairs_text (p : EncParams) : (registeredPairs p).map pairText = registered p := by
  simp only [registeredPairs, List.map_append, timePair_text, strPair_text, registered, registeredWith]

theorem member_pair_text (m : Member) : pairText m.pair = m.text := by
  simp [pairText, Member.pair, Member.text, str]

theorem extraPairs_text (claims : Option (List Claim)) (n : Nat) : (extraPairs claims n).map pairText = extra claims n := by
  simp [extraPairs, extra, memberTexts, member_pair_text]

theorem extraPairs_ok (claims : Option (List Claim)) (n : Nat) (hv : valuesOk claims n) :
    ∀ kv ∈ extraPairs claims n, JStr kv.1 ∧ JText .value kv.2 := by
  intro kv hkv
  simp only [extraPairs, List.mem_map, List.mem_filterMap] at hkv
  obtain ⟨m, ⟨c, hc, hm⟩, rfl⟩ := hkv
  refine ⟨jStr_escape _, ?_⟩
  simp only [Member.pair]
  cases hs : m.isString with
  | true => exact jtext_quoted _
  | false => exact hv c hc m hm hs

theorem registeredPairs_ok (p : EncParams) : ∀ kv ∈ registeredPairs p, JStr kv.1 ∧ JText .value kv.2 := by
  have ht : ∀ (k : String) (t : Int), (∀ c ∈ str k, 97 ≤ c.toNat ∧ c.toNat ≤ 122) → ∀ kv ∈ timePair k t, JStr kv.1 ∧ JText .value kv.2 := by
    intro k t hk kv hkv
    unfold timePair at hkv
    split at hkv
    · cases hkv
    · simp only [List.mem_singleton] at hkv; subst hkv; exact ⟨jstr_key k hk, .num (jnum_intText t)⟩
  have hs : ∀ (k : String) (v : Ptr) (n : Nat), (∀ c ∈ str k, 97 ≤ c.toNat ∧ c.toNat ≤ 122) → ∀ kv ∈ strPair k v n, JStr kv.1 ∧ JText .value kv.2 := by
    intro k v n hk kv hkv
    unfold strPair at hkv
    split at hkv
    · cases hkv
    · simp only [List.mem_singleton] at hkv; subst hkv; exact ⟨jstr_key k hk, jtext_quoted _⟩
  intro kv hkv
  simp only [registeredPairs, List.mem_append] at hkv
  rcases hkv with (((((h | h) | h) | h) | h) | h) | h
  · exact ht _ _ (by decide) kv h
  · exact ht _ _ (by decide) kv h
  · exact ht _ _ (by decide) kv h
  · exact hs _ _ _ (by decide) kv h
  · exact hs _ _ _ (by decide) kv h
  · exact hs _ _ _ (by decide) kv h
  · exact hs _ _ _ (by decide) kv h

theorem commaSep_append (a b : List Bytes) : commaSep (a ++ b) =
    commaSep a ++ (if a ≠ [] ∧ b ≠ [] then str "," else []) ++ commaSep b := by
  induction a with
  | nil => simp [commaSep]
  | cons x t ih =>
    cases t with
    | nil =>
      cases b with
      | nil => simp [commaSep]
      | cons y u => simp [commaSep]
    | cons y u =>
      simp only [List.cons_append] at ih ⊢
      rw [commaSep, ih, commaSep]
      simp

end L8w8jwt
