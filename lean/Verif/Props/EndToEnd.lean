import Verif.Props.Loose
import Verif.Props.EncodeMore
import Verif.Spec.EndToEnd
/-!
# Properties C40, C41, C43: encoding followed by decoding
-/

namespace L8w8jwt
open Spec

variable {s : Sched} {h h' : Heap} {env : Env} {p : DecParams} {e : EncParams} {tok : Bytes} {num : Bytes → Nat}

/-! ## Decoding succeeds -/

/-- Completeness of `l8w8jwt_decode`: if the three parts can be decoded, the signature is right, and header and payload yield
claims, then it returns all the claims, and validation flags that are those of claim validation. -/
theorem decode_complete (hc : CryptoOk env.crypto) (hv : validateDecodingParams env (some p) = L8W8JWT_SUCCESS) (ht : TokenMem p tok)
    (g : s.good) (safe : DecSafe env s p tok) {a b c : Bytes} (h3 : ThreeParts tok a b c) (d1 : b64Decode true a ≠ none)
    (d2 : b64Decode true b ≠ none) (d3 : b64Decode true c ≠ none) (hal : (alg? p.alg).isSome)
    (hver : Verifies env p.alg (verKey p) (a ++ 46 :: b) c)
    {ds1 ds2 : List DClaim} (c1 : claimsIn env a = .ok (L8W8JWT_SUCCESS, ds1)) (c2 : claimsIn env b = .ok (L8W8JWT_SUCCESS, ds2)) :
    ∃ r h' arr v, decode env (some p) false false false s h = .ok (r, h') ∧ r.rc = L8W8JWT_SUCCESS ∧ r.claims = some arr ∧
      r.claimsLength = some arr.items.length ∧ Views arr.items (ds1 ++ ds2) ∧ r.validation = some v ∧ ¬ SigFailed v ∧
      validateClaims env p arr.items 0 = .ok v := by
  obtain ⟨r, h', he, ⟨st, out, -, rfl⟩, -⟩ :=
    wp_iff_exists.mp (wp_decode (s := s) (h := h) hc hv ht false false (Or.inr rfl) (fun _ => False) (Or.inl fun _ => safe))
  have ha1 : p.alg ≠ -1 := by intro h; rw [h] at hal; exact absurd hal (by decide)
  have hsig : ∀ {r}, Sig env p tok r → r = .ok true := by
    rintro r (⟨h1, -⟩ | ⟨-, a', b', c', d, h3', hd, hp⟩)
    · exact absurd h1 ha1
    · obtain ⟨rfl, rfl, rfl⟩ := three_unique h3 h3'
      match r, hp with
      | .ok true, _ => rfl
      | .ok false, hp => exact absurd hver hp.2.2
      | .error rc, hp => exact absurd hver (verFails_not hp)
  have hseg : SegCode p.alg tok L8W8JWT_SUCCESS := Or.inr (Or.inr ⟨a, b, c, h3, Or.inr ⟨d1, d2, d3, rfl⟩⟩)
  cases out with
  | oom hn => exact absurd g.1 hn
  | segs hi hn =>
    rcases hi.code with h1 | h1
    · exact absurd (SegCode_unique h1 hseg) hn
    · exact absurd g.1 h1.2
  | verify _ _ hs => cases hsig hs
  | @claims sg blk cs a' b' vr _ _ _ hp hcl =>
    obtain ⟨rfl, rfl⟩ := parts_unique (Or.inr ⟨c, h3⟩) hp
    rcases hcl g.1 with ⟨rc, ds, h1, hn⟩ | ⟨_, rc, ds, -, h1, hn⟩
    · rw [c1] at h1; cases h1; exact absurd rfl hn
    · rw [c2] at h1; cases h1; exact absurd rfl hn
  | @done sg blk cs a' b' vr v ds1' ds2' _ _ hs hp hvw hcl hval =>
    obtain ⟨rfl, rfl⟩ := parts_unique (Or.inr ⟨c, h3⟩) hp
    obtain ⟨c1', c2'⟩ := hcl (Or.inl g.grow)
    rw [c1] at c1'
    rw [c2] at c2'
    cases c1'
    cases c2'
    cases hsig hs
    refine ⟨_, h', ⟨some blk, cs⟩, v, he, rfl, rfl, rfl, hvw, rfl, ?_, hval⟩
    have := validateClaims_sig hval
    unfold SigFailed
    show ¬ (v &&& 128 ≠ 0)
    rw [this]
    decide

/-! ## C40 -/

/-- What is signed with a key is accepted by the matching key. -/
theorem signs_verifies (hc : CryptoOk env.crypto) {msg sig : Bytes} (hs : Signs env e msg sig) (hne : sig ≠ [])
    {key : Bytes} (hm : Matching env e key) : Verifies env e.alg key msg (b64 true sig) := by
  have hd := b64Decode_b64 hne
  obtain ⟨hcert, hm⟩ := hm
  refine ⟨hcert, sig, hd, ?_⟩
  unfold Signs at hs
  revert hm hs
  generalize alg? e.alg = o
  match o with
  | none => exact fun hm => hm.elim
  | some (_, .hmac md) =>
    intro hs hm
    simp only at hs hm ⊢
    rw [hm, hs, view_take hd (by rw [hc.hmac _ _ _ _ hs]; omega), ← hc.hmac _ _ _ _ hs, List.take_length]
  | some (_, .rsa md) =>
    rintro ⟨sk, hash, h1, h2, h3⟩ hm
    obtain ⟨pk, h4, h5⟩ := hm sk h1
    exact ⟨pk, hash, h4, h2, h5 _ _ h3⟩
  | some (_, .pss md) =>
    rintro ⟨sk, hash, h1, h2, h3⟩ hm
    obtain ⟨pk, h4, -, h6, h5⟩ := hm sk h1
    refine ⟨pk, hash, h4, h2, ?_⟩
    have hl := hc.pss _ _ _ _ h3
    rw [view_take hd (by omega), h6, ← hl, List.take_length]
    exact h5 _ _ h3
  | some (_, .ecdsa md _ n _) =>
    rintro ⟨sk, hash, r, s, h1, h2, h3, h4, h5, rfl⟩ hm
    obtain ⟨pk, h6, -, h8, h9⟩ := hm sk h1
    refine ⟨pk, hash, h6, h2, h8, ?_⟩
    obtain ⟨e1, e2⟩ := C50_recover n r s h4 h5
    rw [e1, e2]
    exact h9 _ _ _ h3
  | some (_, .eddsa) =>
    rintro hsig ⟨h1, h2, h5⟩
    refine ⟨h1, h2, ?_⟩
    have h5 := h5 msg
    generalize laxHex env.charSigned ((keyBytes e).take 128) = kb at *
    rw [view_take hd (by rw [hsig, hc.ed]; omega), hsig, show (64 : Nat) = (env.crypto.edSign msg (kb ++ [0])).length from (hc.ed _ _).symm,
      List.take_length]
    exact h5

/-- C40 (partial: not for RSA-PSS with odd key sizes, where it is false, see `C40_pss_false`): a token made by the encoder is
accepted by every successful run of the decoder with the same algorithm and a matching key, at any time and whatever it
validates. -/
theorem C40_signature_partial (hc : CryptoOk env.crypto) (hok : TextsOk env e) (g : s.noGrowFail) (hn : ¬ OddPss env e) {r : EncOut}
    (he : encode env (some e) s h = .ok (r, h')) (hr : r.rc = L8W8JWT_SUCCESS) :
    ∃ id tok, r.out = some (some ⟨id, tok ++ [0]⟩) ∧ ∀ (t : Int) (p : DecParams) (s' : Sched) (k k' : Heap) (a b c : Bool) (r' : DecOut) (v : VRes),
      TokenMem p tok → p.alg = e.alg → Matching env e (verKey p) → decode { env with now := t } (some p) a b c s' k = .ok (r', k') →
      r'.rc = L8W8JWT_SUCCESS → r'.validation = some v → ¬ SigFailed v := by
  obtain ⟨name, sch, id, tok, hdr, pay, sig, hal, ho, -, htok, -, -, hem, -, -, hne⟩ := encode_token_ne hc hok g he hr
  refine ⟨id, tok, ho, fun t p s' k k' a b c r' v ht ha hm hdec hr' hv => ?_⟩
  have hver := signs_verifies hc (emits_signs hem hn) hne hm
  have h0 := C19_known_alg he hr
  refine C28_verified_conv (env := { env with now := t }) hc ht (by omega) (by omega) ⟨_, _, _, isToken_three htok, ?_⟩ hdec hr' hv
  rw [ha]
  have : signingInput hdr pay = b64 true hdr ++ 46 :: b64 true pay := by simp [signingInput, str]
  rw [← this]
  exact hver

/-! ## C41 -/

theorem noUni_escape (t : Bytes) (hp : t.all plainChar = true) : noUni (escape t) = true := by
  have key : ∀ j : Fin 256, plainChar (UInt8.ofNat j.val) = true →
      (escapeByte (UInt8.ofNat j.val) = [UInt8.ofNat j.val] ∧ UInt8.ofNat j.val ≠ 92) ∨
      (escapeByte (UInt8.ofNat j.val) = [92, (escapeByte (UInt8.ofNat j.val)).getD 1 0] ∧ (escapeByte (UInt8.ofNat j.val)).getD 1 0 ≠ 117) := by
    decide +kernel
  induction t with
  | nil => rfl
  | cons c t ih =>
    simp only [List.all_cons, Bool.and_eq_true] at hp
    have hi := ih hp.2
    have hk := key ⟨c.toNat, c.toNat_lt⟩
    simp only [UInt8.ofNat_toNat] at hk
    simp only [escape, List.flatMap_cons] at hi ⊢
    generalize t.flatMap escapeByte = u at hi ⊢
    rcases hk hp.1 with ⟨h1, h2⟩ | ⟨h1, h2⟩
    · rw [h1]
      cases u with
      | nil => rfl
      | cons d u => simpa [noUni, h2] using hi
    · rw [h1]
      generalize (escapeByte c).getD 1 0 = x at h2
      simpa [noUni, h2] using hi

theorem jsonString_escape (t : Bytes) : jsonString (escape t) = some t := by
  unfold jsonString
  rw [lexString_escape t []]

theorem str_quote : str "\"" = [34] := by decide

theorem jsonClaim_string (k v : Bytes) : jsonClaim num (escape k, str "\"" ++ escape v ++ str "\"") = ⟨k, v, 0⟩ := by
  have : str "\"" ++ escape v ++ str "\"" = 34 :: (escape v ++ [34]) := by simp [str_quote]
  rw [this]
  simp [jsonClaim, jsonString_escape, unquote_eq, valueType]

theorem plainPair_string (k v : Bytes) (hk : k.all plainChar = true) (hv : v.all plainChar = true) :
    plainPair (escape k, str "\"" ++ escape v ++ str "\"") = true := by
  have : str "\"" ++ escape v ++ str "\"" = 34 :: (escape v ++ [34]) := by simp [str_quote]
  rw [this]
  simp [plainPair, unquote_eq, noUni_escape _ hk, noUni_escape _ hv]

/-- Nothing that needs escaping. -/
def literal (k : String) : Bool := escape (str k) == str k && (str k).all plainChar

theorem literal_eq {k : String} (h : literal k = true) : escape (str k) = str k ∧ (str k).all plainChar = true := by
  simpa [literal] using h

theorem digits_type {v : Bytes} (hd : JDigits v) (h1 : num v = 1) : valueType num v = some 1 ∧ v.head? ≠ some 34 := by
  obtain ⟨hne, hd⟩ := hd
  cases v with
  | nil => exact absurd rfl hne
  | cons c r =>
    obtain ⟨h48, h57⟩ := hd c (by simp)
    have no : ∀ x : UInt8, ¬ (48 ≤ x ∧ x ≤ 57) → c ≠ x := by
      rintro x hx rfl
      exact hx ⟨h48, h57⟩
    have n34 := no 34 (by decide)
    have n91 := no 91 (by decide)
    have n123 := no 123 (by decide)
    have nt := no 116 (by decide)
    have nf := no 102 (by decide)
    have nn := no 110 (by decide)
    have e1 : str "true" = 116 :: [114, 117, 101] := by decide
    have e2 : str "false" = 102 :: [97, 108, 115, 101] := by decide
    have e3 : str "null" = 110 :: [117, 108, 108] := by decide
    constructor
    · unfold valueType
      rw [e1, e2, e3]
      simp only [List.head?_cons, Option.some.injEq, List.cons.injEq, n34, n91, n123, nt, nf, nn, false_and, or_self, if_false, h1, if_true]
    · simpa using n34

/-- Everything needed about the members that come from one source. -/
structure Sound (num : Bytes → Nat) (l : List (Bytes × Bytes)) (ds : List DClaim) : Prop where
  claims : l.map (jsonClaim num) = ds
  plain : l.all plainPair = true
  typed : l.all (fun m => (valueType num m.2).isSome) = true

theorem sound_nil : Sound num [] [] := ⟨rfl, rfl, rfl⟩

theorem sound_append {l l' : List (Bytes × Bytes)} {ds ds' : List DClaim} (h : Sound num l ds) (h' : Sound num l' ds') :
    Sound num (l ++ l') (ds ++ ds') :=
  ⟨by rw [List.map_append, h.claims, h'.claims], by rw [List.all_append, h.plain, h'.plain]; rfl,
    by rw [List.all_append, h.typed, h'.typed]; rfl⟩

theorem sound_time (hi : IntsOk num) (k : String) (hk : literal k = true) {t : Int} (ht : 0 ≤ t) :
    Sound num (timePair k t) (timeSays k t) := by
  unfold timePair timeSays
  by_cases h0 : t = 0
  · rw [if_pos h0, if_pos h0]; exact sound_nil
  · rw [if_neg h0, if_neg h0]
    have hpos : 0 < t := by omega
    obtain ⟨d1, -, -⟩ := C21_intText t hpos
    obtain ⟨e1, e2⟩ := digits_type d1 (hi t hpos)
    obtain ⟨k1, k2⟩ := literal_eq hk
    have k3 := jsonString_escape (str k)
    have k4 := noUni_escape (str k) k2
    rw [k1] at k3 k4
    exact ⟨by simp [jsonClaim, k3, e1, e2], by simp [plainPair, k4, e2], by simp [e1]⟩

theorem sound_str (k : String) (hk : literal k = true) {v : Ptr} {n : Nat}
    (hv : ∀ b, v = some b → (arg b.mem n).all plainChar = true) : Sound num (strPair k v n) (strSays k v n) := by
  cases v with
  | none => exact sound_nil
  | some b =>
    obtain ⟨k1, k2⟩ := literal_eq hk
    have a1 := jsonClaim_string (num := num) (str k) (arg b.mem n)
    have a2 := plainPair_string (str k) (arg b.mem n) k2 (hv b rfl)
    rw [k1] at a1 a2
    exact ⟨by simp only [strPair, strSays, List.map_cons, List.map_nil, a1],
      by simp only [strPair, List.all_cons, List.all_nil, a2, Bool.and_self], by simp [strPair, str_quote, valueType]⟩

theorem sound_one {k v : String} (hk : literal k = true) (hv : literal v = true) :
    Sound num [(str k, str "\"" ++ str v ++ str "\"")] [⟨str k, str v, 0⟩] := by
  obtain ⟨k1, k2⟩ := literal_eq hk
  obtain ⟨v1, v2⟩ := literal_eq hv
  have a1 := jsonClaim_string (num := num) (str k) (str v)
  have a2 := plainPair_string (str k) (str v) k2 v2
  rw [k1, v1] at a1 a2
  exact ⟨by simp only [List.map_cons, List.map_nil, a1], by simp only [List.all_cons, List.all_nil, a2, Bool.and_self],
    by simp [str_quote, valueType]⟩

theorem sound_header {id : Int} {name : String} {sch : Scheme} (ha : alg? id = some (name, sch)) :
    Sound num (headerPairs name) (headerClaimsOf name) := by
  have hn : literal name = true := by
    unfold alg? at ha
    split at ha
    · cases ha
    · have key : ∀ x ∈ algs, literal x.1 = true := by decide +kernel
      exact key _ (List.mem_of_getElem? ha)
  unfold headerPairs headerClaimsOf
  refine sound_append (sound_append (sound_append (l := [_]) (ds := [_]) (sound_one (by decide) hn) (sound_one (by decide) (by decide))) ?_) ?_
  · split
    · exact sound_append (l := [_]) (ds := [_]) (sound_one (by decide) (by decide)) (sound_one (by decide) (by decide))
    · exact sound_nil
  · split
    · exact sound_append (l := [_]) (ds := [_]) (sound_one (by decide) (by decide)) (sound_one (by decide) (by decide))
    · exact sound_nil

theorem sound_registered (hi : IntsOk num) (ht : TimesOk e) (hs : StringsPlain e) : Sound num (registeredPairs e) (registeredSays e) := by
  obtain ⟨t1, -, t2, -, t3, -⟩ := ht
  unfold registeredPairs registeredSays
  refine sound_append (sound_append (sound_append (sound_append (sound_append (sound_append ?_ ?_) ?_) ?_) ?_) ?_) ?_
  · exact sound_time hi _ (by decide) t1
  · exact sound_time hi _ (by decide) t2
  · exact sound_time hi _ (by decide) t3
  · exact sound_str _ (by decide) (hs _ _ (by simp))
  · exact sound_str _ (by decide) (hs _ _ (by simp))
  · exact sound_str _ (by decide) (hs _ _ (by simp))
  · exact sound_str _ (by decide) (hs _ _ (by simp))

theorem sound_list (l : List Claim) (hh : ∀ c ∈ l, ∀ m, member c = some m →
    (arg m.key m.keyLength).all plainChar = true ∧ (m.isString = true → (arg m.value m.valueLength).all plainChar = true) ∧
    (m.isString = false → JText .value (arg m.value m.valueLength) ∧ valueType num (arg m.value m.valueLength) = some c.type)) :
    Sound num ((l.filterMap member).map Member.pair) (l.filterMap givenClaim) := by
  induction l with
  | nil => exact sound_nil
  | cons c l ih =>
    have hi := ih (fun x hx => hh x (by simp [hx]))
    cases hm : member c with
    | none =>
      have hg : givenClaim c = none := by simp [givenClaim, hm]
      rw [List.filterMap_cons_none hm, List.filterMap_cons_none hg]
      exact hi
    | some m =>
      have hg : givenClaim c = some ⟨arg m.key m.keyLength, arg m.value m.valueLength, c.type⟩ := by simp [givenClaim, hm]
      rw [List.filterMap_cons_some hm, List.filterMap_cons_some hg, List.map_cons]
      refine sound_append (l := [m.pair]) (ds := [_]) ?_ hi
      obtain ⟨h1, h2, h3⟩ := hh c (by simp) m hm
      have hty : m.isString = decide (c.type = L8W8JWT_CLAIM_TYPE_STRING) := by
        unfold member at hm
        split at hm
        · cases hm; rfl
        · cases hm
      cases hs : m.isString with
      | true =>
        have ht : c.type = 0 := by rw [hs] at hty; simpa using hty.symm
        have hp : m.pair = (escape (arg m.key m.keyLength), str "\"" ++ escape (arg m.value m.valueLength) ++ str "\"") := by
          simp [Member.pair, hs]
        rw [hp, ht]
        exact ⟨by simp only [List.map_cons, List.map_nil, jsonClaim_string],
          by simp only [List.all_cons, List.all_nil, plainPair_string _ _ h1 (h2 hs), Bool.and_self], by simp [str_quote, valueType]⟩
      | false =>
        have ht : c.type ≠ L8W8JWT_CLAIM_TYPE_STRING := by rw [hs] at hty; simpa using hty.symm
        have hp : m.pair = (escape (arg m.key m.keyLength), arg m.value m.valueLength) := by simp [Member.pair, hs]
        obtain ⟨-, hv⟩ := h3 hs
        have h34 : (arg m.value m.valueLength).head? ≠ some 34 := fun hx => ht ((valueType_string hv).mpr hx)
        rw [hp]
        exact ⟨by simp [jsonClaim, jsonString_escape, hv, h34], by simp [plainPair, noUni_escape _ h1, h34], by simp [hv]⟩

theorem sound_extra {claims : Option (List Claim)} {n : Nat} (hh : ClaimsHonest num claims n) :
    Sound num (extraPairs claims n) (extraClaims claims n) := sound_list _ hh

theorem honest_values {claims : Option (List Claim)} {n : Nat} (hh : ClaimsHonest num claims n) : valuesOk claims n :=
  fun c hc m hm hs => ((hh c hc m hm).2.2 hs).1

/-- A JSON object with sound members yields the claims. -/
theorem claimsIn_sound {t : Bytes} {l : List (Bytes × Bytes)} {ds : List DClaim} (hj : JObject t l) (hs : Sound env.checknum l ds)
    (hf : FitsTokens l) : claimsIn env (b64 true t) = .ok (L8W8JWT_SUCCESS, ds) := by
  obtain ⟨ds', n, h1, h2, h3⟩ := parsed_typed (num := env.checknum) hj hs.typed
  rw [sayAll_eq h1 hs.plain, hs.claims] at h3
  refine claimsIn_fits (ok := true) (n := n + 1) (b := behindOf l) ?_ ?_
  · rw [readText, jsonOf, b64Decode_b64 (jobject_ne hj), Option.getD_some, cString_id (jobject_nul hj)]
    exact h3
  · unfold behindOf
    split
    · rename_i hl
      rcases hf with ⟨m, h4, h5⟩ | hf
      · have := pairsSize_unique h2 h4
        exact show n + 1 ≤ 62 by omega
      · rw [hf] at hl; cases hl
    · trivial

/-- Verification is defined for signatures of the encoder and matching keys. -/
theorem signs_safe (hc : CryptoOk env.crypto) {msg sig : Bytes} (hs : Signs env e msg sig) (hne : sig ≠ []) (hm : Matching env e (verKey p))
    (ha : p.alg = e.alg) (hf : KeyFits (verKey p)) : VerSafe env p (b64 true sig) := by
  have hd := b64Decode_b64 hne
  have hl := (segBuf_length hd).2
  simp only [List.length_append] at hl
  obtain ⟨-, hm⟩ := hm
  unfold Signs at hs
  refine ⟨hf, ?_, ?_, ?_, ?_⟩
  · intro name md hal
    rw [ha] at hal
    simp only [hal] at hs
    have := hc.hmac _ _ _ _ hs
    omega
  · intro name md pk hal hpk
    rw [ha] at hal
    simp only [hal] at hs hm
    obtain ⟨sk, hash, h1, h2, h3⟩ := hs
    obtain ⟨pk', h4, h5, h6, -⟩ := hm sk h1
    cases publicKey_unique hpk h4
    have := hc.pss _ _ _ _ h3
    exact ⟨h5, by omega⟩
  · intro name md cv n b pk hal hpk
    rw [ha] at hal
    simp only [hal] at hs hm
    obtain ⟨sk, hash, r, s, h1, -⟩ := hs
    obtain ⟨pk', h4, h5, -⟩ := hm sk h1
    cases publicKey_unique hpk h4
    exact h5
  · intro name hal _ _
    rw [ha] at hal
    simp only [hal] at hs
    have := hc.ed msg (laxHex env.charSigned ((keyBytes e).take 128) ++ [0])
    rw [← hs] at this
    omega

/-- The header text is an object with the intended members. -/
def HeaderOk (e : EncParams) : Prop := e.headerClaimsCount = 0 ∨ extra e.headerClaims e.headerClaimsCount ≠ []

/-- What the caller of the encoder has to respect for the token to say exactly what was asked for. -/
structure Faithful (num : Bytes → Nat) (e : EncParams) : Prop where
  /-- times are not negative -/
  times : TimesOk e
  /-- the separator between registered and other claims is written if it is needed (see `C20_sepOk_of_explicit`) -/
  sep : SepOk e
  header : HeaderOk e
  /-- the values of claims have the types given, and strings have no unusual control characters -/
  headerClaims : ClaimsHonest num e.headerClaims e.headerClaimsCount
  payloadClaims : ClaimsHonest num e.payloadClaims e.payloadClaimsCount
  strings : StringsPlain e
  /-- not too many claims, or none that is an array or object at the end -/
  headerFits : ∀ name, FitsTokens (headerPairs name ++ extraPairs e.headerClaims e.headerClaimsCount)
  payloadFits : FitsTokens (registeredPairs e ++ extraPairs e.payloadClaims e.payloadClaimsCount)

/-- What the caller of the decoder has to respect. -/
structure Decodes (env : Env) (e : EncParams) (p : DecParams) : Prop where
  valid : validateDecodingParams env (some p) = L8W8JWT_SUCCESS
  alg : p.alg = e.alg
  key : Matching env e (verKey p)
  readable : VerKeyReadable p
  fits : (verKey p).length < 8192 ∨ (verKey p).getLast? = some 0
  expect : ExpectOk p
  typ : env.charSigned = true → ∀ t, p.validateTyp = some t → ∀ c ∈ cString t, c < 128

theorem typ_first (name : String) (l : List DClaim) : claimStarting (str "typ") (headerClaimsOf name ++ l) = some ⟨str "typ", str "JWT", 0⟩ := by
  unfold headerClaimsOf claimStarting
  simp only [List.cons_append, List.find?_cons]
  rw [show (str "typ").isPrefixOf (str "alg") = false by decide, show (str "typ").isPrefixOf (str "typ") = true by decide]

/-- C40, C41 (partial, under the conditions of `Faithful`, and not for RSA-PSS with odd key sizes; see `C40_pss_false`,
`C41_false`, `C20_payload_false`, `C21_times_false`, `C44_overread_false` for why they are needed): a token made by the encoder
is decoded, with the same algorithm and a matching key, at any time, without any failure; the signature is accepted; the claims
are exactly those given, in order, with their keys, values and types; the flags are those of claim validation. -/
theorem C41_round_trip_partial (hc : CryptoOk env.crypto) (hi : IntsOk env.checknum) (hok : TextsOk env e) (g : s.good)
    (hn : ¬ OddPss env e) (hf : Faithful env.checknum e) {r : EncOut}
    (he : encode env (some e) s h = .ok (r, h')) (hr : r.rc = L8W8JWT_SUCCESS) :
    ∃ name sch id tok, alg? e.alg = some (name, sch) ∧ r.out = some (some ⟨id, tok ++ [0]⟩) ∧
      ∀ (now : Int) (p : DecParams) (s' : Sched) (k : Heap), NowOk now → Decodes env e p → TokenMem p tok → s'.good →
        ∃ r' k' arr, decode { env with now := now } (some p) false false false s' k = .ok (r', k') ∧ r'.rc = L8W8JWT_SUCCESS ∧
          r'.claims = some arr ∧ r'.claimsLength = some (encodedClaims e name).length ∧ Views arr.items (encodedClaims e name) ∧
          r'.validation = some (claimFlags (fun x => claimStarting x (encodedClaims e name)) now p) := by
  obtain ⟨name, sch, id, tok, hdr, pay, sig, hal, ho, -, htok, -, -, hem, -, -, hne⟩ := encode_token_ne hc hok g.grow he hr
  refine ⟨name, sch, id, tok, hal, ho, fun now p s' k hnow hd ht g' => ?_⟩
  have e1 : hdr = headerJson e name := by
    obtain ⟨name', sch', id', tok', hdr', pay', sig', hal', ho', htok', hx⟩ := C18_header_exact_partial hc hok g he hr
    rw [hal] at hal'
    cases hal'
    rw [ho] at ho'
    simp only [Option.some.injEq, Block.mk.injEq, List.append_cancel_right_eq] at ho'
    obtain ⟨-, rfl⟩ := ho'
    obtain ⟨rfl, rfl, rfl⟩ := isToken_unique _ _ _ _ _ _ _ htok htok'
    exact hx.mpr hf.header
  have e2 : pay = payloadJson e := by
    obtain ⟨id', tok', hdr', pay', sig', ho', htok', hx⟩ := C20_payload_partial hc hok hf.times g he hr
    rw [ho] at ho'
    simp only [Option.some.injEq, Block.mk.injEq, List.append_cancel_right_eq] at ho'
    obtain ⟨-, rfl⟩ := ho'
    obtain ⟨rfl, rfl, rfl⟩ := isToken_unique _ _ _ _ _ _ _ htok htok'
    exact hx.mpr hf.sep
  subst e1
  subst e2
  have hj1 := C18_headerJson_valid name sch hal (honest_values hf.headerClaims)
  have hj2 := C20_payloadJson_valid (honest_values hf.payloadClaims)
  have c1 := claimsIn_sound (env := { env with now := now }) hj1 (sound_append (sound_header hal) (sound_extra hf.headerClaims)) (hf.headerFits name)
  have c2 := claimsIn_sound (env := { env with now := now }) hj2 (sound_append (sound_registered hi hf.times hf.strings) (sound_extra hf.payloadClaims)) hf.payloadFits
  have hsig := emits_signs hem hn
  have hver := signs_verifies hc hsig hne hd.key
  have h3 := isToken_three htok
  have hin : signingInput (headerJson e name) (payloadJson e) = b64 true (headerJson e name) ++ 46 :: b64 true (payloadJson e) := by
    simp [signingInput, str]
  rw [hin] at hver
  have hta : TypAscii { env with now := now } p (encodedClaims e name) := by
    intro hcs t d hp hd'
    refine ⟨?_, hd.typ hcs t hp⟩
    unfold encodedClaims at hd'
    rw [List.append_assoc, typ_first] at hd'
    cases hd'
    decide
  have safe : DecSafe { env with now := now } s' p tok := by
    refine ⟨Or.inr g'.1, hd.readable, ?_, fun _ => ?_, fun _ => ?_, hd.expect, hnow, fun _ => Or.inr (Or.inr ⟨Or.inl g'.grow, ?_⟩)⟩
    · intro _ a b c h3'
      obtain ⟨rfl, rfl, rfl⟩ := three_unique h3 h3'
      obtain ⟨v1, v2, v3, v4, v5⟩ := signs_safe hc hsig hne hd.key hd.alg hd.fits
      exact VerSafe.defined (env := { env with now := now }) ⟨v1, v2, v3, v4, v5⟩ (b64Decode_b64 hne) _
    · intro a b hp
      obtain ⟨rfl, rfl⟩ := parts_unique (Or.inr ⟨_, h3⟩) hp
      exact ⟨_, c1⟩
    · intro a b hp
      obtain ⟨rfl, rfl⟩ := parts_unique (Or.inr ⟨_, h3⟩) hp
      exact Or.inl ⟨_, c2⟩
    · intro a b ds1 ds2 hp x1 x2
      obtain ⟨rfl, rfl⟩ := parts_unique (Or.inr ⟨_, h3⟩) hp
      rw [c1] at x1
      rw [c2] at x2
      cases x1
      cases x2
      exact hta.defined
  obtain ⟨r', k', arr, v, q1, q2, q3, q4, q5, q6, -, q8⟩ := decode_complete (env := { env with now := now }) (h := k) hc hd.valid ht g' safe h3
    (by rw [b64Decode_b64 (jobject_ne hj1)]; simp) (by rw [b64Decode_b64 (jobject_ne hj2)]; simp) (by rw [b64Decode_b64 hne]; simp)
    (by rw [hd.alg, hal]; rfl) (by rw [hd.alg]; exact hver) c1 c2
  refine ⟨r', k', arr, q1, q2, q3, ?_, q5, ?_⟩
  · rw [q4, q5.length]
    rfl
  · rw [q6]
    rw [validateClaims_eq q5 hd.expect hnow hta.defined, zeroOr] at q8
    injection q8 with q8
    rw [← q8]
    rfl

/-- Encode with the toy crypto, then decode: return code and claims. -/
def roundClaims (p : EncParams) : Option (Nat × List DClaim) :=
  match tokenOf toy p with
  | none => none
  | some t =>
    match decode toy (some (toyDec t.dropLast)) false false false calm heap0 with
    | .ok (r, _) => some (r.rc, match r.claims with
      | none => []
      | some a => a.items.map fun c => ⟨(c.key.bytes.getD []).take c.keyLength, (c.value.bytes.getD []).take c.valueLength, c.type⟩)
    | .error _ => none

/-- A claim given by C strings. -/
def mkClaimOf (k v : String) (ty : Int) : Claim := { key := cs k, keyLength := 0, value := cs v, valueLength := 0, type := ty }

/-- Parameters with registered and other claims. -/
def richParams : EncParams :=
  { toyParams with
    iss := cs "me", issLength := 2, exp := 2000, payloadClaimsCount := 3
    payloadClaims := some [mkClaimOf "a" "x\"y/\n" 0, mkClaimOf "b" "12" 1, mkClaimOf "c" "[1,{\"iss\":2}]" 5] }

example : roundClaims richParams = some (0, encodedClaims richParams "HS256") ∧ (encodedClaims richParams "HS256").length = 7 := by
  decide +kernel

/-- C41 is false without conditions: control characters come back as escape sequences. -/
theorem C41_false : roundClaims { toyParams with iss := cs "\x01", issLength := 1 } =
    some (0, [⟨str "alg", str "HS256", 0⟩, ⟨str "typ", str "JWT", 0⟩, ⟨str "iss", str "\\u0001", 0⟩]) := by decide +kernel

/-- C40 is false for RSA-PSS keys whose bit length is not a multiple of 8: the token does not verify with the same key. -/
theorem C40_pss_false : Matching toy { toyParams with alg := 6, secretKey := some (str "S"), secretKeyLength := 1 } (str "S") ∧
    roundTrip { toyParams with alg := 6, secretKey := some (str "S"), secretKeyLength := 1 }
      (fun tok => { toyDec tok 6 with verificationKey := some (str "S"), verificationKeyLength := 1 }) =
      some (L8W8JWT_SUCCESS, some L8W8JWT_SIGNATURE_VERIFICATION_FAILURE) := by
  have hk : cString (str "S") = [83] := by decide
  have hnc : ¬ contains (str "-----BEGIN CERTIFICATE-----") (cString (str "S")) := by
    rintro ⟨a, b, hab⟩
    rw [hk] at hab
    have := congrArg List.length hab
    simp only [List.length_append, List.length_cons, List.length_nil, show (str "-----BEGIN CERTIFICATE-----").length = 27 by decide] at this
    omega
  refine ⟨⟨fun hx => absurd hx hnc, ?_⟩, by decide +kernel⟩
  show ∀ sk, _ → _
  intro sk hsk
  have hsk : some (⟨true, 2049, .other 0⟩ : ToyPk) = some sk := hsk
  cases hsk
  refine ⟨(⟨true, 2049, .other 0⟩ : ToyPk), ⟨fun hx => absurd hx hnc, fun _ => rfl⟩, rfl, rfl, ?_⟩
  intro hash sig hs
  have gen : ∀ x : Bytes, some x = some sig → (sig == x) = true := by
    intro x hx
    injection hx with hx
    rw [hx]
    exact beq_self_eq_true _
  exact gen (toySum ((min 2049 32000 + 7) / 8) hash) hs

/-- C40 is false for HMAC keys that contain the first line of a certificate: the decoder refuses the key. -/
theorem C40_hmac_key_false : roundTrip
      { toyParams with secretKey := some (str "-----BEGIN CERTIFICATE-----" ++ [0]), secretKeyLength := 27 }
      (fun tok => { toyDec tok with verificationKey := some (str "-----BEGIN CERTIFICATE-----" ++ [0]), verificationKeyLength := 27 }) =
    some (L8W8JWT_KEY_PARSE_FAILURE, some 0xffffffff#32) := by decide +kernel

example : roundTrip { toyParams with alg := 6, secretKey := some (str "R"), secretKeyLength := 1 }
    (fun tok => { toyDec tok 6 with verificationKey := some (str "R"), verificationKeyLength := 1 }) = some (0, some 0) := by decide +kernel

/-! ## C43 -/

/-- The members have the same names, and values of the same type. -/
inductive SameShape (num : Bytes → Nat) : List (Bytes × Bytes) → List (Bytes × Bytes) → Prop where
  | nil : SameShape num [] []
  | cons {m m' l l'} : m.1 = m'.1 → valueType num m.2 = valueType num m'.2 → SameShape num l l' → SameShape num (m :: l) (m' :: l')

theorem sameShape_refl (l : List (Bytes × Bytes)) : SameShape num l l := by
  induction l with
  | nil => exact .nil
  | cons m l ih => exact .cons rfl rfl ih

theorem sameShape_append {a b a' b' : List (Bytes × Bytes)} (h : SameShape num a a') (h' : SameShape num b b') :
    SameShape num (a ++ b) (a' ++ b') := by
  induction h with
  | nil => exact h'
  | cons x y _ ih => exact .cons x y ih

theorem sayAll_shape {l l' : List (Bytes × Bytes)} {ds ds' : List DClaim} (hl : SameShape num l l') (h : SayAll num l ds)
    (h' : SayAll num l' ds') : ds.map (·.key) = ds'.map (·.key) ∧ ds.map (·.type) = ds'.map (·.type) := by
  induction hl generalizing ds ds' with
  | nil => cases h; cases h'; exact ⟨rfl, rfl⟩
  | cons e1 e2 _ ih =>
    cases h with
    | cons a as =>
      cases h' with
      | cons b bs =>
        obtain ⟨i1, i2⟩ := ih as bs
        have k1 := unescapes_unique a.rawKey
        have k2 := unescapes_unique b.rawKey
        have t1 := a.type
        have t2 := b.type
        rw [e2, t2] at t1
        injection t1 with t1
        simp only [List.map_cons, i1, i2, k1, k2, e1, t1, and_self]

theorem sameShape_str (k : String) (v v' : Ptr) (n n' : Nat) (h : v.isSome = v'.isSome) :
    SameShape num (strPair k v n) (strPair k v' n') := by
  cases v with
  | none =>
    cases v' with
    | none => exact .nil
    | some b => cases h
  | some b =>
    cases v' with
    | none => cases h
    | some b' => exact .cons rfl (by simp [str_quote, valueType]) .nil

theorem sameShape_alike {l l' : List Claim} (h : Alike l l') :
    SameShape num ((l.filterMap member).map Member.pair) ((l'.filterMap member).map Member.pair) := by
  induction h with
  | nil => exact .nil
  | @same c l l' _ ih =>
    cases hm : member c with
    | none => rw [List.filterMap_cons_none hm, List.filterMap_cons_none hm]; exact ih
    | some m => rw [List.filterMap_cons_some hm, List.filterMap_cons_some hm]; exact .cons rfl rfl ih
  | @string c c' l l' e1 e2 t t' ev _ ih =>
    obtain ⟨k, kn, v, vn, ty⟩ := c
    obtain ⟨k', kn', v', vn', ty'⟩ := c'
    simp only at e1 e2 t t' ev
    subst e1 e2 t t'
    cases k with
    | none => rw [List.filterMap_cons_none rfl, List.filterMap_cons_none rfl]; exact ih
    | some k =>
      cases v with
      | none =>
        cases v' with
        | none => rw [List.filterMap_cons_none rfl, List.filterMap_cons_none rfl]; exact ih
        | some b => cases ev
      | some b =>
        cases v' with
        | none => cases ev
        | some b' =>
          rw [List.filterMap_cons_some (f := member) rfl, List.filterMap_cons_some (f := member) rfl]
          exact .cons rfl (by simp [Member.pair, str_quote, valueType]) ih

/-- A token of the encoder under the conditions that make header and payload valid JSON. -/
theorem encoded_objects (hc : CryptoOk env.crypto) (hok : TextsOk env e) (g : s.good) (ht : TimesOk e) (hs : SepOk e) (hh : HeaderOk e)
    (v1 : valuesOk e.headerClaims e.headerClaimsCount) (v2 : valuesOk e.payloadClaims e.payloadClaimsCount) {r : EncOut}
    (he : encode env (some e) s h = .ok (r, h')) (hr : r.rc = L8W8JWT_SUCCESS) :
    ∃ name sch id tok hdr pay sig, alg? e.alg = some (name, sch) ∧ r.out = some (some ⟨id, tok ++ [0]⟩) ∧ IsToken tok hdr pay sig ∧
      JObject hdr (headerPairs name ++ extraPairs e.headerClaims e.headerClaimsCount) ∧
      JObject pay (registeredPairs e ++ extraPairs e.payloadClaims e.payloadClaimsCount) := by
  obtain ⟨name, sch, id, tok, hdr, pay, sig, hal, ho, htok, hx⟩ := C18_header_exact_partial hc hok g he hr
  obtain ⟨id', tok', hdr', pay', sig', ho', htok', hx'⟩ := C20_payload_partial hc hok ht g he hr
  rw [ho] at ho'
  simp only [Option.some.injEq, Block.mk.injEq, List.append_cancel_right_eq] at ho'
  obtain ⟨-, rfl⟩ := ho'
  obtain ⟨rfl, rfl, rfl⟩ := isToken_unique _ _ _ _ _ _ _ htok htok'
  refine ⟨name, sch, id, tok, hdr, pay, sig, hal, ho, htok, ?_, ?_⟩
  · rw [hx.mpr hh]; exact C18_headerJson_valid name sch hal v1
  · rw [hx'.mpr hs]; exact C20_payloadJson_valid v2

/-- Conditions under which header and payload are valid JSON. -/
structure WellFormed (e : EncParams) : Prop where
  times : TimesOk e
  sep : SepOk e
  header : HeaderOk e
  headerValues : valuesOk e.headerClaims e.headerClaimsCount
  payloadValues : valuesOk e.payloadClaims e.payloadClaimsCount

/-- C43: two tokens for the same claims that differ only in the contents of strings (iss, sub, aud, jti and string claims in
header and payload) are decoded to the same number of claims with the same keys and types in the same order, whatever the strings
are, and whatever the keys and the decoding parameters. -/
theorem C43_no_forgery {env' denv denv' : Env} {e' : EncParams} {s' : Sched} {g1 g2 g3 g4 h2 h3 : Heap} {p' : DecParams} {r r' : EncOut} {tok tok' : Bytes}
    {d d' : DecOut} {a b : Bool} {t t' : Sched} (ha : AlikeParams e e') (w : WellFormed e) (w' : WellFormed e')
    (hc : CryptoOk env.crypto) (hc' : CryptoOk env'.crypto) (hok : TextsOk env e) (hok' : TextsOk env' e') (g : s.good) (g' : s'.good)
    (he : encode env (some e) s h = .ok (r, h')) (hr : r.rc = L8W8JWT_SUCCESS)
    (he' : encode env' (some e') s' h2 = .ok (r', h3)) (hr' : r'.rc = L8W8JWT_SUCCESS)
    {i i' : Nat} (ho : r.out = some (some ⟨i, tok ++ [0]⟩)) (ho' : r'.out = some (some ⟨i', tok' ++ [0]⟩))
    (hnum : denv.checknum = denv'.checknum) (hdc : CryptoOk denv.crypto) (hdc' : CryptoOk denv'.crypto)
    (hm : TokenMem p tok) (hm' : TokenMem p' tok') (ht : t.noGrowFail) (ht' : t'.noGrowFail)
    (hd : decode denv (some p) false false a t g1 = .ok (d, g2)) (hdr : d.rc = L8W8JWT_SUCCESS)
    (hd' : decode denv' (some p') false false b t' g3 = .ok (d', g4)) (hdr' : d'.rc = L8W8JWT_SUCCESS) :
    ∃ arr arr' ds ds', d.claims = some arr ∧ d'.claims = some arr' ∧ Views arr.items ds ∧ Views arr'.items ds' ∧
      d.claimsLength = d'.claimsLength ∧ ds.map (·.key) = ds'.map (·.key) ∧ ds.map (·.type) = ds'.map (·.type) := by
  obtain ⟨name, sch, id, tk, hdr1, pay1, sig1, al1, o1, k1, j1, l1⟩ :=
    encoded_objects hc hok g w.times w.sep w.header w.headerValues w.payloadValues he hr
  obtain ⟨name', sch', id', tk', hdr2, pay2, sig2, al2, o2, k2, j2, l2⟩ :=
    encoded_objects hc' hok' g' w'.times w'.sep w'.header w'.headerValues w'.payloadValues he' hr'
  rw [ho] at o1
  rw [ho'] at o2
  simp only [Option.some.injEq, Block.mk.injEq, List.append_cancel_right_eq] at o1 o2
  obtain ⟨-, rfl⟩ := o1
  obtain ⟨-, rfl⟩ := o2
  rw [← ha.alg, al1] at al2
  cases al2
  have jof : ∀ {x : Bytes} {l}, JObject x l → JObject (jsonOf (b64 true x)) l := by
    intro x l hj
    rw [show jsonOf (b64 true x) = x by simp [jsonOf, b64Decode_b64 (jobject_ne hj)]]
    exact hj
  obtain ⟨arr, ds, v, x1, x2, -, x4, x5, -⟩ := C42_top_level hdc hm (Or.inl ht) (Or.inr ⟨_, isToken_three k1⟩) (jof j1) (jof l1) hd hdr
  obtain ⟨arr', ds', v', y1, y2, -, y4, y5, -⟩ := C42_top_level hdc' hm' (Or.inl ht') (Or.inr ⟨_, isToken_three k2⟩) (jof j2) (jof l2) hd' hdr'
  rw [← hnum] at y5
  have hshape : SameShape denv.checknum
      ((headerPairs name ++ extraPairs e.headerClaims e.headerClaimsCount) ++ (registeredPairs e ++ extraPairs e.payloadClaims e.payloadClaimsCount))
      ((headerPairs name ++ extraPairs e'.headerClaims e'.headerClaimsCount) ++ (registeredPairs e' ++ extraPairs e'.payloadClaims e'.payloadClaimsCount)) := by
    refine sameShape_append (sameShape_append (sameShape_refl _) (sameShape_alike ha.header)) (sameShape_append ?_ (sameShape_alike ha.payload))
    unfold registeredPairs
    rw [ha.iat, ha.nbf, ha.exp]
    exact sameShape_append (sameShape_append (sameShape_append (sameShape_append (sameShape_refl _) (sameShape_str _ _ _ _ _ ha.sub))
      (sameShape_str _ _ _ _ _ ha.iss)) (sameShape_str _ _ _ _ _ ha.aud)) (sameShape_str _ _ _ _ _ ha.jti)
  obtain ⟨q1, q2⟩ := sayAll_shape hshape x5 y5
  refine ⟨arr, arr', ds, ds', x1, y1, x4, y4, ?_, q1, q2⟩
  rw [x2, y2, ← sayAll_length x5, ← sayAll_length y5]
  have := congrArg List.length q1
  simpa using this

/-- A string that tries to add a claim does not. -/
example : (roundClaims { richParams with iss := cs "me\",\"admin\":true,\"x\":\"", issLength := 23 }).map (fun x => x.2.map (·.key)) =
    (roundClaims richParams).map (fun x => x.2.map (·.key)) := by decide +kernel

/-! ## C54 -/

theorem starting_append (k : Bytes) (a b : List DClaim) :
    claimStarting k (a ++ b) = (claimStarting k a).or (claimStarting k b) := by
  unfold claimStarting; exact List.find?_append

theorem starting_none {k : Bytes} {l : List DClaim} (h : ∀ d ∈ l, k.isPrefixOf d.key = false) : claimStarting k l = none := by
  unfold claimStarting
  rw [List.find?_eq_none]
  intro d hd
  simp [h d hd]

theorem starting_time (k k' : String) (t : Int) : claimStarting (str k) (timeSays k' t) =
    if (str k).isPrefixOf (str k') then (timeSays k' t).head? else none := by
  unfold timeSays claimStarting
  by_cases h : t = 0
  · simp [h]
  · simp only [if_neg h, List.find?_cons, List.find?_nil, List.head?_cons]
    cases (str k).isPrefixOf (str k') <;> rfl

theorem starting_str (k k' : String) (v : Ptr) (n : Nat) : claimStarting (str k) (strSays k' v n) =
    if (str k).isPrefixOf (str k') then (strSays k' v n).head? else none := by
  unfold strSays claimStarting
  cases v with
  | none => simp
  | some b =>
    simp only [List.find?_cons, List.find?_nil, List.head?_cons]
    cases (str k).isPrefixOf (str k') <;> rfl

/-- The names that are looked up are found in the registered claims. -/
theorem starting_encoded {k : String} (hk : k ∈ ["iss", "sub", "aud", "jti", "exp", "nbf", "iat"]) (ho : OwnNames e) :
    claimStarting (str k) (encodedClaims e name) = claimStarting (str k) (registeredSays e) := by
  have hh : claimStarting (str k) (headerClaimsOf name) = none := by
    apply starting_none
    intro d hd
    have key : ∀ x ∈ ["iss", "sub", "aud", "jti", "exp", "nbf", "iat"], ∀ y ∈ ["alg", "typ", "kty", "crv"], (str x).isPrefixOf (str y) = false := by
      decide
    have : ∃ y ∈ ["alg", "typ", "kty", "crv"], d.key = str y := by
      unfold headerClaimsOf at hd
      simp only [List.mem_append, List.mem_cons, List.not_mem_nil, or_false] at hd
      rcases hd with ((rfl | rfl) | hd) | hd
      · exact ⟨"alg", by simp, rfl⟩
      · exact ⟨"typ", by simp, rfl⟩
      · split at hd
        · simp only [List.mem_cons, List.not_mem_nil, or_false] at hd
          rcases hd with rfl | rfl
          · exact ⟨"kty", by simp, rfl⟩
          · exact ⟨"crv", by simp, rfl⟩
        · cases hd
      · split at hd
        · simp only [List.mem_cons, List.not_mem_nil, or_false] at hd
          rcases hd with rfl | rfl
          · exact ⟨"kty", by simp, rfl⟩
          · exact ⟨"crv", by simp, rfl⟩
        · cases hd
    obtain ⟨y, hy, e1⟩ := this
    rw [e1]
    exact key k hk y hy
  unfold encodedClaims
  rw [starting_append, starting_append, starting_append, hh,
    starting_none (l := extraClaims e.headerClaims e.headerClaimsCount) (fun d hd => ho d (by simp [hd]) k hk),
    starting_none (l := extraClaims e.payloadClaims e.payloadClaimsCount) (fun d hd => ho d (by simp [hd]) k hk)]
  simp

theorem leadingInt_time {t : Int} (h0 : 0 ≤ t) (h1 : t < 2 ^ 63) (hne : t ≠ 0) : leadingInt (intText t) = t := by
  obtain ⟨d, -, v⟩ := C21_intText t (by omega)
  exact C35_integer_value (Or.inl ⟨d, v.symm⟩) (by omega)

theorem strFails_given {find : Bytes → Option DClaim} {k : String} {v : Ptr} {n m : Nat} {x : Option Bytes}
    (h : find (str k) = (strSays k v n).head?) : (strFails find k x m = true) ↔ Differs (givenText v n) x m := by
  unfold strFails Differs givenText
  rw [h]
  cases x with
  | none => simp
  | some x =>
    cases v with
    | none => simp [strSays]
    | some b => simp [strSays]

/-- C54 (partial, under the conditions of `C41_round_trip_partial`, and if the caller's claims do not use names starting like
registered ones, see `C54_false`): a token made by the encoder is decoded, and each validation flag is set exactly if the value
that was given to the encoder is not the expected one, or the time given to the encoder is over or still to come. -/
theorem C54_validated_partial (hc : CryptoOk env.crypto) (hi : IntsOk env.checknum) (hok : TextsOk env e) (g : s.good)
    (hn : ¬ OddPss env e) (hf : Faithful env.checknum e) (how : OwnNames e) {r : EncOut}
    (he : encode env (some e) s h = .ok (r, h')) (hr : r.rc = L8W8JWT_SUCCESS) :
    ∃ id tok, r.out = some (some ⟨id, tok ++ [0]⟩) ∧
      ∀ (now : Int) (p : DecParams) (s' : Sched) (k : Heap), NowOk now → Decodes env e p → TokenMem p tok → s'.good →
        ∃ r' k' v, decode { env with now := now } (some p) false false false s' k = .ok (r', k') ∧ r'.rc = L8W8JWT_SUCCESS ∧
          r'.validation = some v ∧ Verdict e p now v := by
  obtain ⟨name, sch, id, tok, -, ho, hx⟩ := C41_round_trip_partial hc hi hok g hn hf he hr
  refine ⟨id, tok, ho, fun now p s' k h1 h2 h3 h4 => ?_⟩
  obtain ⟨r', k', arr, a1, a2, -, -, -, a6⟩ := hx now p s' k h1 h2 h3 h4
  refine ⟨r', k', _, a1, a2, a6, ?_⟩
  obtain ⟨t1, t2, t3, t4, t5, t6⟩ := hf.times
  have look : ∀ x ∈ ["iss", "sub", "aud", "jti", "exp", "nbf", "iat"], claimStarting (str x) (encodedClaims e name) = claimStarting (str x) (registeredSays e) :=
    fun x hx => starting_encoded hx how
  have fiat : claimStarting (str "iat") (encodedClaims e name) = (timeSays "iat" e.iat).head? := by
    rw [look _ (by simp)]; unfold registeredSays
    simp only [starting_append, starting_time, starting_str]
    simp [show (str "iat").isPrefixOf (str "nbf") = false by decide, show (str "iat").isPrefixOf (str "exp") = false by decide,
      show (str "iat").isPrefixOf (str "sub") = false by decide, show (str "iat").isPrefixOf (str "iss") = false by decide,
      show (str "iat").isPrefixOf (str "aud") = false by decide, show (str "iat").isPrefixOf (str "jti") = false by decide,
      show (str "iat").isPrefixOf (str "iat") = true by decide]
  have fnbf : claimStarting (str "nbf") (encodedClaims e name) = (timeSays "nbf" e.nbf).head? := by
    rw [look _ (by simp)]; unfold registeredSays
    simp only [starting_append, starting_time, starting_str]
    simp [show (str "nbf").isPrefixOf (str "nbf") = true by decide, show (str "nbf").isPrefixOf (str "exp") = false by decide,
      show (str "nbf").isPrefixOf (str "sub") = false by decide, show (str "nbf").isPrefixOf (str "iss") = false by decide,
      show (str "nbf").isPrefixOf (str "aud") = false by decide, show (str "nbf").isPrefixOf (str "jti") = false by decide,
      show (str "nbf").isPrefixOf (str "iat") = false by decide]
  have fexp : claimStarting (str "exp") (encodedClaims e name) = (timeSays "exp" e.exp).head? := by
    rw [look _ (by simp)]; unfold registeredSays
    simp only [starting_append, starting_time, starting_str]
    simp [show (str "exp").isPrefixOf (str "nbf") = false by decide, show (str "exp").isPrefixOf (str "exp") = true by decide,
      show (str "exp").isPrefixOf (str "sub") = false by decide, show (str "exp").isPrefixOf (str "iss") = false by decide,
      show (str "exp").isPrefixOf (str "aud") = false by decide, show (str "exp").isPrefixOf (str "jti") = false by decide,
      show (str "exp").isPrefixOf (str "iat") = false by decide]
  have fsub : claimStarting (str "sub") (encodedClaims e name) = (strSays "sub" e.sub e.subLength).head? := by
    rw [look _ (by simp)]; unfold registeredSays
    simp only [starting_append, starting_time, starting_str]
    simp [show (str "sub").isPrefixOf (str "nbf") = false by decide, show (str "sub").isPrefixOf (str "exp") = false by decide,
      show (str "sub").isPrefixOf (str "sub") = true by decide, show (str "sub").isPrefixOf (str "iss") = false by decide,
      show (str "sub").isPrefixOf (str "aud") = false by decide, show (str "sub").isPrefixOf (str "jti") = false by decide,
      show (str "sub").isPrefixOf (str "iat") = false by decide]
  have fiss : claimStarting (str "iss") (encodedClaims e name) = (strSays "iss" e.iss e.issLength).head? := by
    rw [look _ (by simp)]; unfold registeredSays
    simp only [starting_append, starting_time, starting_str]
    simp [show (str "iss").isPrefixOf (str "nbf") = false by decide, show (str "iss").isPrefixOf (str "exp") = false by decide,
      show (str "iss").isPrefixOf (str "sub") = false by decide, show (str "iss").isPrefixOf (str "iss") = true by decide,
      show (str "iss").isPrefixOf (str "aud") = false by decide, show (str "iss").isPrefixOf (str "jti") = false by decide,
      show (str "iss").isPrefixOf (str "iat") = false by decide]
  have faud : claimStarting (str "aud") (encodedClaims e name) = (strSays "aud" e.aud e.audLength).head? := by
    rw [look _ (by simp)]; unfold registeredSays
    simp only [starting_append, starting_time, starting_str]
    simp [show (str "aud").isPrefixOf (str "nbf") = false by decide, show (str "aud").isPrefixOf (str "exp") = false by decide,
      show (str "aud").isPrefixOf (str "sub") = false by decide, show (str "aud").isPrefixOf (str "iss") = false by decide,
      show (str "aud").isPrefixOf (str "aud") = true by decide, show (str "aud").isPrefixOf (str "jti") = false by decide,
      show (str "aud").isPrefixOf (str "iat") = false by decide]
  have fjti : claimStarting (str "jti") (encodedClaims e name) = (strSays "jti" e.jti e.jtiLength).head? := by
    rw [look _ (by simp)]; unfold registeredSays
    simp only [starting_append, starting_time, starting_str]
    simp [show (str "jti").isPrefixOf (str "nbf") = false by decide, show (str "jti").isPrefixOf (str "exp") = false by decide,
      show (str "jti").isPrefixOf (str "sub") = false by decide, show (str "jti").isPrefixOf (str "iss") = false by decide,
      show (str "jti").isPrefixOf (str "aud") = false by decide, show (str "jti").isPrefixOf (str "jti") = true by decide,
      show (str "jti").isPrefixOf (str "iat") = false by decide]
  have late : ∀ (k : String) (en : Bool) (t : Int) (tol : UInt8), 0 ≤ t → t < 2 ^ 63 → claimStarting (str k) (encodedClaims e name) = (timeSays k t).head? →
      ((lateFails (fun x => claimStarting x (encodedClaims e name)) k en now tol = true) ↔ en = true ∧ (t = 0 ∨ now > t + tol.toNat)) := by
    intro k en t tol u0 u1 hk
    unfold lateFails
    by_cases hz : t = 0
    · simp [hk, timeSays, hz]
    · have hz' : claimStarting (str k) (encodedClaims e name) = some ⟨str k, intText t, 1⟩ := by rw [hk, timeSays, if_neg hz]; rfl
      simp only [hz', leadingInt_time u0 u1 hz, hz, false_or, Bool.and_eq_true, decide_eq_true_eq]
      constructor
      · rintro ⟨x, y⟩; exact ⟨x, by omega⟩
      · rintro ⟨x, y⟩; exact ⟨x, by omega⟩
  have early : ∀ (k : String) (en : Bool) (t : Int) (tol : UInt8), 0 ≤ t → t < 2 ^ 63 → claimStarting (str k) (encodedClaims e name) = (timeSays k t).head? →
      ((earlyFails (fun x => claimStarting x (encodedClaims e name)) k en now tol = true) ↔ en = true ∧ (t = 0 ∨ now + tol.toNat < t)) := by
    intro k en t tol u0 u1 hk
    unfold earlyFails
    by_cases hz : t = 0
    · simp [hk, timeSays, hz]
    · have hz' : claimStarting (str k) (encodedClaims e name) = some ⟨str k, intText t, 1⟩ := by rw [hk, timeSays, if_neg hz]; rfl
      simp only [hz', leadingInt_time u0 u1 hz, hz, false_or, Bool.and_eq_true, decide_eq_true_eq]
  unfold claimFlags
  obtain ⟨b1, b2, b3, b4, b5, b6, b7, -, b9⟩ := flag_bits
    (strFails (fun x => claimStarting x (encodedClaims e name)) "iss" p.validateIss p.validateIssLength)
    (strFails (fun x => claimStarting x (encodedClaims e name)) "sub" p.validateSub p.validateSubLength)
    (strFails (fun x => claimStarting x (encodedClaims e name)) "aud" p.validateAud p.validateAudLength)
    (strFails (fun x => claimStarting x (encodedClaims e name)) "jti" p.validateJti p.validateJtiLength)
    (lateFails (fun x => claimStarting x (encodedClaims e name)) "exp" p.validateExp now p.expTolerance)
    (earlyFails (fun x => claimStarting x (encodedClaims e name)) "nbf" p.validateNbf now p.nbfTolerance)
    (earlyFails (fun x => claimStarting x (encodedClaims e name)) "iat" p.validateIat now p.iatTolerance)
    (typFails (fun x => claimStarting x (encodedClaims e name)) p.validateTyp p.validateTypLength)
  refine ⟨b1.trans (strFails_given fiss), b2.trans (strFails_given fsub), b3.trans (strFails_given faud), b4.trans (strFails_given fjti),
    b5.trans (late _ _ _ _ t5 t6 fexp), b6.trans (early _ _ _ _ t3 t4 fnbf), b7.trans (early _ _ _ _ t1 t2 fiat), ?_⟩
  have : ∀ x : BitVec 32, x &&& ~~~383 = 0 → x &&& 128 = 0 := by
    intro x hx
    have : x &&& 128 = (x &&& ~~~383) &&& 128 := by
      rw [BitVec.and_assoc]
      rfl
    rw [this, hx]
    rfl
  exact this _ b9

/-- C54 is false without the condition on the caller's claims: a claim whose name merely starts with a registered name, in the
header or before the other one, is validated in its place. -/
theorem C54_false : roundTrip { toyParams with iss := cs "me", issLength := 2, headerClaims := some [mkClaimOf "issuer" "you" 0], headerClaimsCount := 1 }
    (fun tok => { toyDec tok with validateIss := some (str "you"), validateIssLength := 3 }) = some (0, some 0) ∧
  roundTrip { toyParams with iss := cs "me", issLength := 2, headerClaims := some [mkClaimOf "issuer" "you" 0], headerClaimsCount := 1 }
    (fun tok => { toyDec tok with validateIss := some (str "me"), validateIssLength := 2 }) = some (0, some L8W8JWT_ISS_FAILURE) := by decide +kernel

/-- Parameters for which all conditions are shown below to hold. -/
def plainParams : EncParams := { toyParams with iss := cs "m\"e", issLength := 3, exp := 2000 }

theorem intsOk_toy : IntsOk toy.checknum := by
  intro t ht
  obtain ⟨⟨h1, h2⟩, -, -⟩ := C21_intText t ht
  generalize intText t = x at *
  have hd : ∀ c ∈ x, isDigit c = true := by
    intro c hc
    have := h2 c hc
    simp only [isDigit, Bool.and_eq_true, decide_eq_true_eq]
    exact this
  have h3 : ¬ x.head? = some 45 := by
    intro h4
    have := h2 45 (List.mem_of_mem_head? h4)
    exact absurd this (by decide)
  show (if (if x.head? = some 45 then x.drop 1 else x).isEmpty then 0 else _) = 1
  rw [if_neg h3, if_neg (by simpa using h1), if_pos (List.all_eq_true.mpr hd)]

theorem plain_faithful : Faithful toy.checknum plainParams where
  times := by refine ⟨?_, ?_, ?_, ?_, ?_, ?_⟩ <;> decide
  sep := fun h => absurd h (by decide)
  header := Or.inl rfl
  headerClaims := by intro c hc; cases hc
  payloadClaims := by intro c hc; cases hc
  strings := by
    intro v n hv b hb
    simp only [List.mem_cons, Prod.mk.injEq, List.not_mem_nil, or_false] at hv
    rcases hv with ⟨rfl, rfl⟩ | ⟨rfl, rfl⟩ | ⟨rfl, rfl⟩ | ⟨rfl, rfl⟩
    · cases hb
    · cases hb; decide
    · cases hb
    · cases hb
  headerFits := by
    intro name
    refine Or.inr ?_
    unfold headerPairs lastComposite
    by_cases h1 : name = "ES256K"
    · subst h1; decide
    · by_cases h2 : name = "EdDSA"
      · subst h2; decide
      · simp only [if_neg h1, if_neg h2, List.append_nil]
        rfl
  payloadFits := Or.inr (by decide)

theorem plain_decodes (tok x : Bytes) (ht : tok ≠ []) (hx : x ≠ []) : Decodes toy plainParams
    { toyDec tok with validateExp := true, validateIss := some x, validateIssLength := x.length } where
  valid := by
    have : tok.length ≠ 0 := by simpa using ht
    simp [validateDecodingParams, toyDec, this, toy, L8W8JWT_MAX_KEY_SIZE]
  alg := rfl
  key := by
    show Matching toy plainParams (str "secret")
    refine ⟨fun hx => ?_, (by decide : hmacKey (str "secret") = hmacKey (keyBytes plainParams))⟩
    obtain ⟨a, b, hab⟩ := hx
    have := congrArg List.length hab
    rw [show (cString (str "secret")).length = 6 by decide] at this
    simp only [List.length_append, show (str "-----BEGIN CERTIFICATE-----").length = 27 by decide] at this
    omega
  readable := by
    intro mem hm
    cases hm
    exact (by decide : 6 ≤ (str "secret").length)
  fits := Or.inl (by exact (by decide : (str "secret").length < 8192))
  expect := by
    refine ⟨fun e he => ?_, nofun, nofun, nofun, nofun⟩
    cases he
    show argOk x x.length
    unfold argOk
    rw [if_neg (by simpa using hx)]
    exact Nat.le_refl _
  typ := nofun

/-- All conditions of C41 and C54 hold for a token with an issuer and expiration time. -/
example : CryptoOk toy.crypto ∧ IntsOk toy.checknum ∧ TextsOk toy plainParams ∧ calm.good ∧ ¬ OddPss toy plainParams ∧
    Faithful toy.checknum plainParams ∧ OwnNames plainParams ∧ (tokenOf toy plainParams).isSome ∧
    ∀ tok x, tok ≠ [] → x ≠ [] →
      Decodes toy plainParams { toyDec tok with validateExp := true, validateIss := some x, validateIssLength := x.length } := by
  refine ⟨toyOk, intsOk_toy, ?_, ⟨fun _ => rfl, fun _ => rfl⟩, ?_, plain_faithful, nofun, by decide +kernel, plain_decodes⟩
  · refine ⟨?_, ?_, ?_, ?_, ?_, ?_⟩
    any_goals (intro b hb; cases hb)
    exact ⟨(by decide : 3 ≤ (str "m\"e" ++ [0]).length), fun _ => by decide⟩
  · rintro ⟨name, md, pk, h1, -⟩
    cases (show some ("HS256", Scheme.hmac .sha256) = some (name, Scheme.pss md) from h1)

/-- The token is accepted at time 1000, with the right issuer, and refused with another. -/
example : roundTrip plainParams (fun tok => { toyDec tok with validateExp := true, validateIss := some (str "m\"e"), validateIssLength := 3 }) = some (0, some 0) ∧
    roundTrip plainParams (fun tok => { toyDec tok with validateExp := true, validateIss := some (str "you"), validateIssLength := 3 }) =
      some (0, some L8W8JWT_ISS_FAILURE) ∧
    roundTrip { plainParams with exp := 700 } (fun tok => { toyDec tok with validateExp := true, expTolerance := 255 }) = some (0, some L8W8JWT_EXP_FAILURE) ∧
    roundTrip { plainParams with exp := 750 } (fun tok => { toyDec tok with validateExp := true, expTolerance := 255 }) = some (0, some 0) := by
  decide +kernel

end L8w8jwt
