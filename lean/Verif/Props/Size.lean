import Verif.Spec.Size
import Verif.Props.LowMem
import Verif.Props.EncodeAnswer
/-!
# Properties C70 and C71: the size of results
-/

namespace L8w8jwt
open Spec

variable {s : Sched} {h h' : Heap} {env : Env} {p : DecParams} {tok : Bytes}

/-! ## Decoded claims -/

theorem unescapes_length {t v : Bytes} (h : Unescapes t v) : v.length ≤ t.length := by
  induction h with
  | nil => exact Nat.le_refl _
  | simple _ _ ih => simp only [List.length_cons]; omega
  | other _ _ ih => simp only [List.length_cons]; omega

/-- The number of characters of the items. -/
def itemsSize (l : List Item) : Nat := (l.map fun i => i.text.length).sum

theorem itemsSize_append (a b : List Item) : itemsSize (a ++ b) = itemsSize a + itemsSize b := by simp [itemsSize]

theorem items_length {t : Bytes} {l : List Item} (h : Items t l) : itemsSize l ≤ t.length := by
  induction h with
  | nil => exact Nat.le_refl _
  | gap _ _ ih => simp only [List.length_cons]; omega
  | string _ _ ih => simp [itemsSize] at ih ⊢; omega
  | word _ _ _ ih => simp [itemsSize] at ih ⊢; omega
  | array _ _ _ ih => simp [itemsSize] at ih ⊢; omega
  | object _ _ _ ih => simp [itemsSize] at ih ⊢; omega

/-- Strings are at least as long as their quotation marks. -/
theorem items_quoted {t : Bytes} {l : List Item} (h : Items t l) : ∀ i ∈ l, i.text.head? = some 34 → 2 ≤ i.text.length := by
  induction h with
  | nil => simp
  | gap _ _ ih => exact ih
  | string _ _ ih =>
    intro i hi hq
    rcases List.mem_cons.mp hi with rfl | hi
    · simp
    · exact ih i hi hq
  | word hw _ _ ih =>
    intro i hi hq
    rcases List.mem_cons.mp hi with rfl | hi
    · obtain ⟨c, t, rfl, -, hc, -⟩ := hw
      simp at hq
      exact absurd hq hc
    · exact ih i hi hq
  | array _ _ _ ih | object _ _ _ ih =>
    intro i hi hq
    rcases List.mem_cons.mp hi with rfl | hi
    · simp at hq
    · exact ih i hi hq

theorem pairs_size {num : Bytes → Nat} {l : List Item} {ok : Bool} {ds : List DClaim} {b : Behind} (h : Pairs num l ok ds b)
    (hq : ∀ i ∈ l, i.text.head? = some 34 → 2 ≤ i.text.length) : claimsSize ds ≤ itemsSize l := by
  have one : ∀ {k v d}, ItemClaim num k v d → 2 ≤ k.text.length → d.key.length + d.value.length + 2 ≤ k.text.length + v.text.length := by
    intro k v d hc h2
    have h1 := unescapes_length hc.key
    have h3 : d.value.length ≤ v.text.length := by
      by_cases hv : v.text.head? = some 34
      · have := unescapes_length (hc.string hv)
        simp [unquote] at this
        omega
      · rw [hc.other hv]; exact Nat.le_refl _
    simp [unquote] at h1
    omega
  induction h with
  | nil | single | nested | key | value => simp [claimsSize]
  | last h1 h2 h3 =>
    have := one h2 (hq _ (by simp) h1)
    simp [claimsSize, itemsSize]
    omega
  | cons h1 h2 h3 _ ih =>
    have a := one h2 (hq _ (by simp) h1)
    have b := ih (fun i hi => hq i (by simp [hi]))
    simp [claimsSize, itemsSize] at b ⊢
    omega

theorem parsed_size {num : Bytes → Nat} {t : Bytes} {ok : Bool} {ds : List DClaim} {n : Nat} {b : Behind} (h : Parsed num t ok ds n b) :
    claimsSize ds ≤ t.length := by
  cases h with
  | empty | noItems | noObject => simp [claimsSize]
  | @object v l a k _ _ _ h1 h2 h3 h4 =>
    have e1 := items_length h1
    have e2 := items_length h3
    have e4 := pairs_size h4 (fun i hi => by
      rcases List.mem_append.mp hi with hi | hi
      · exact items_quoted h3 i hi
      · exact items_quoted h1 i (by simp [hi]))
    rw [itemsSize_append] at e4
    have : v.text.length = a.length + 2 := by rw [h2]; simp
    simp [itemsSize] at e1 e2 e4
    omega

theorem decodeGroups_length {l d : Bytes} (h : decodeGroups true l = some d) : d.length * 4 ≤ 3 * (l.filter (· != 61)).length := by
  have key : ∀ n (l d : Bytes), l.length < n → decodeGroups true l = some d → d.length * 4 ≤ 3 * (l.filter (· != 61)).length := by
    intro n
    induction n with
    | zero => intro l d h; omega
    | succ n ih =>
      intro l d hl hd
      match l, hl, hd with
      | a :: b :: c :: e :: t, hl, hd =>
        unfold decodeGroups at hd
        have hc : ([a, b, c, e].filter (· != 61)).length + [a, b, c, e].count 61 = 4 := by
          have := List.length_eq_countP_add_countP (fun x : UInt8 => x == 61) (l := [a, b, c, e])
          rw [List.count, List.countP_eq_length_filter] at *
          simp only [List.countP_eq_length_filter] at this
          have e : ([a, b, c, e].filter (fun x => decide ¬ (x == 61) = true)) = [a, b, c, e].filter (· != 61) := by
            congr 1; funext x; cases hx : x == 61 <;> simp [bne, hx]
          rw [e] at this
          simp only [List.length_cons, List.length_nil] at this
          omega
        have hf : (a :: b :: c :: e :: t).filter (· != 61) = [a, b, c, e].filter (· != 61) ++ t.filter (· != 61) := by
          rw [← List.filter_append]; rfl
        rw [hf, List.length_append]
        simp only at hd
        split at hd
        · rename_i h0
          cases ht : decodeGroups true t with
          | none => rw [ht] at hd; cases hd
          | some x =>
            rw [ht] at hd
            cases hd
            have := ih t x (by simp only [List.length_cons] at hl; omega) ht
            rw [h0] at hc
            rw [List.length_append, groupBytes_length]
            omega
        · split at hd
          · cases hd
            rw [List.length_take, groupBytes_length]
            omega
          · cases hd
      | [], _, hd | [_], _, hd | [_, _], _, hd | [_, _, _], _, hd =>
        simp only [decodeGroups] at hd
        cases hd
        simp
  exact key _ l d (Nat.lt_succ_self _) h

theorem b64Decode_length {t d : Bytes} (h : b64Decode true t = some d) : d.length * 4 ≤ 3 * t.length := by
  unfold b64Decode at h
  simp only at h
  split at h
  · cases h
  · have h1 := decodeGroups_length h
    rw [List.filter_append] at h1
    have h2 : (List.replicate ((4 - (t.filter (relevant true)).length % 4) % 4) (61 : UInt8)).filter (· != 61) = [] := by
      rw [List.filter_eq_nil_iff]
      intro x hx
      simp [List.eq_of_mem_replicate hx]
    rw [h2, List.append_nil] at h1
    have h3 := List.length_filter_le (· != (61 : UInt8)) (t.filter (relevant true))
    have h4 := List.length_filter_le (relevant true) t
    omega

theorem readText_length (a : Bytes) : (readText a).length * 4 ≤ 3 * a.length := by
  have h1 : (readText a).length ≤ (jsonOf a).length := by
    unfold readText cString
    exact (List.takeWhile_sublist _).length_le
  unfold jsonOf at h1
  cases hd : b64Decode true a with
  | none => rw [hd] at h1; simp at h1; simp [h1]
  | some d =>
    rw [hd] at h1
    have := b64Decode_length hd
    simp at h1
    omega

theorem parts_length {a b : Bytes} (h : Parts tok a b) : a.length + b.length + 1 ≤ tok.length := by
  rcases h with h | ⟨c, h⟩
  · rw [h.1]; simp; omega
  · rw [h.1]; simp; omega

theorem claimsSize_append (a b : List DClaim) : claimsSize (a ++ b) = claimsSize a + claimsSize b := by simp [claimsSize]

theorem answer_size {rc : Nat} {v : BitVec 32} {ds : List DClaim} (h : Answer env p tok rc v ds) : claimsSize ds * 4 ≤ 3 * tok.length := by
  cases h with
  | failed => simp [claimsSize]
  | @good a b _ _ _ _ _ _ _ h1 h2 h3 _ | @bad a b _ _ _ _ _ _ _ h1 h2 h3 _ =>
    have e1 := parsed_size h2
    have e2 := parsed_size h3
    have e3 := readText_length a
    have e4 := readText_length b
    have e5 := parts_length h1
    rw [claimsSize_append]
    omega

theorem sublist_size {es ds : List DClaim} (h : es.Sublist ds) : claimsSize es ≤ claimsSize ds := by
  induction h with
  | slnil => exact Nat.le_refl _
  | cons _ _ ih => simp [claimsSize] at ih ⊢; omega
  | cons_cons _ _ ih => simp [claimsSize] at ih ⊢; omega

theorem views_size {cs : List Claim} {ds : List DClaim} (h : Views cs ds) : reportedSize cs = claimsSize ds := by
  induction h with
  | nil => rfl
  | cons hv _ ih =>
    obtain ⟨⟨_, _, _, h1⟩, ⟨_, _, _, h2⟩, _⟩ := hv
    simp [reportedSize, claimsSize, h1, h2] at ih ⊢
    omega

/-- C70: what decoding hands out is not larger than three quarters of the token, whatever allocations fail: names and values of all
claims together, and two bytes for each claim. -/
theorem C70_decode (hc : CryptoOk env.crypto) (ht : TokenMem p tok) (hx : ExpectOk p) (hn : NowOk env.now) {r : DecOut} {arr : ClaimArr}
    (he : decode env (some p) false false false s h = .ok (r, h')) (hr : r.claims = some arr) : reportedSize arr.items * 4 ≤ 3 * tok.length := by
  by_cases hv : validateDecodingParams env (some p) = L8W8JWT_SUCCESS
  · rcases C67_decode hc hv ht hx hn he with ⟨-, -, h1, -⟩ | ⟨-, v, ds, arr', es, b, ha, -, -, h1, -, h2, h3, -⟩
    · rw [h1] at hr; cases hr
    · rw [h1] at hr
      cases hr
      rw [views_size h2]
      have := sublist_size h3
      have := answer_size ha
      omega
  · rw [(C27_decode_invalid _ hv).1] at he
    cases he
    cases hr

/-- The size of the claims decoding hands out. -/
def handedOut (p : DecParams) : Option Nat :=
  match decode toy (some p) false false false calm heap0 with
  | .ok (r, _) => r.claims.map fun c => reportedSize c.items
  | .error _ => none

/-- A token of 87 characters with claims of size 21: the header claim `alg` (10), `a` (6) and `e` (5), and the bound is 65. -/
example : (mkTok hdr1 "{\"a\":\"bcd\"\"e\"12}" (toyMac hdr1 pay1)).length = 87 ∧
    handedOut (toyDec (mkTok hdr1 "{\"a\":\"bcd\"\"e\"12}" (toyMac hdr1 pay1))) = some 21 := by decide +kernel

/-- C70: the segments handed out without validation are not larger than three quarters of the token. -/
theorem C70_raw (ht : TokenMem p tok) {r : RawOut} (he : decodeRawNoValidation env (some p) {} s h = .ok (r, h'))
    (hr : r.rc = L8W8JWT_SUCCESS) : ∃ q1 n1 q2 n2 q3 n3, r.header = some (q1, n1) ∧ r.payload = some (q2, n2) ∧ r.signature = some (q3, n3) ∧
      (n1 + n2 + n3) * 4 ≤ 3 * tok.length := by
  have key : ∀ {x : Option (Ptr × Nat)} {t : Bytes}, Holds x t → ∃ q n, x = some (q, n) ∧ n * 4 ≤ 3 * t.length := by
    intro x t hh
    obtain ⟨id, mem, d, hd, rfl, -⟩ := hh
    exact ⟨_, _, rfl, b64Decode_length hd⟩
  rcases C37_segments ht he hr with ⟨a, b, c, h3, k1, k2, k3⟩ | ⟨-, a, b, h2, k1, k2, k3⟩
  · obtain ⟨q1, n1, e1, l1⟩ := key k1
    obtain ⟨q2, n2, e2, l2⟩ := key k2
    obtain ⟨q3, n3, e3, l3⟩ := key k3
    refine ⟨q1, n1, q2, n2, q3, n3, e1, e2, e3, ?_⟩
    rw [h3.1]; simp; omega
  · obtain ⟨q1, n1, e1, l1⟩ := key k1
    obtain ⟨q2, n2, e2, l2⟩ := key k2
    refine ⟨q1, n1, q2, n2, none, 0, e1, e2, k3, ?_⟩
    rw [h2.1]; simp; omega

/-! ## Tokens -/

theorem escape_length_le (t : Bytes) : (escape t).length ≤ 6 * t.length := by
  have key : ∀ c : UInt8, (escapeByte c).length ≤ 6 := by
    have : ∀ n : Fin 256, (escapeByte (UInt8.ofNat n.val)).length ≤ 6 := by decide +kernel
    intro c
    have := this ⟨c.toNat, c.toNat_lt⟩
    rwa [UInt8.ofNat_toNat] at this
  induction t with
  | nil => simp [escape]
  | cons c t ih =>
    have := key c
    simp [escape] at ih ⊢
    omega

theorem natText_length_le (k n : Nat) (h : n < 10 ^ (k + 1)) : (natText n).length ≤ k + 1 := by
  induction k generalizing n with
  | zero => unfold natText; rw [if_pos (by simpa using h)]; simp
  | succ k ih =>
    unfold natText
    split
    · simp
    · have := ih (n / 10) (by rw [Nat.div_lt_iff_lt_mul (by omega)]; rw [Nat.pow_succ] at h; exact h)
      simp only [List.length_append, List.length_cons, List.length_nil]
      omega

theorem timeText_length (t : Int) : (timeText t).length ≤ 20 := by
  unfold timeText
  refine natText_length_le 19 _ ?_
  unfold toU64
  omega

/-- The number of characters of texts, and one for each. -/
def textsSize (l : List Bytes) : Nat := (l.map fun x => x.length + 1).sum

theorem textsSize_append (a b : List Bytes) : textsSize (a ++ b) = textsSize a + textsSize b := by simp [textsSize]

theorem commaSep_length (l : List Bytes) : (commaSep l).length ≤ textsSize l := by
  induction l with
  | nil => exact Nat.le_refl _
  | cons x t ih =>
    cases t with
    | nil => simp [commaSep, textsSize]
    | cons y t =>
      simp [commaSep, textsSize] at ih ⊢
      rw [show (str ",").length = 1 from rfl]
      omega

theorem member_length (m : Member) : m.text.length + 1 ≤ 6 * ((arg m.key m.keyLength).length + (arg m.value m.valueLength).length + 1) := by
  have h1 := escape_length_le (arg m.key m.keyLength)
  have h2 := escape_length_le (arg m.value m.valueLength)
  unfold Member.text
  generalize escape (arg m.key m.keyLength) = k at *
  generalize escape (arg m.value m.valueLength) = v at *
  generalize arg m.key m.keyLength = k' at *
  generalize arg m.value m.valueLength = v' at *
  have e1 : (str "\"").length = 1 := rfl
  have e2 : (str "\":").length = 2 := rfl
  split <;> simp only [List.length_append, e1, e2] <;> omega

theorem extra_length (claims : Option (List Claim)) (n : Nat) : textsSize (extra claims n) ≤ 6 * givenSize claims n := by
  unfold extra memberTexts givenSize givenClaims textsSize
  simp only [List.map_map]
  induction ((claims.getD []).take n).filterMap member with
  | nil => simp
  | cons m l ih =>
    have := member_length m
    simp only [List.map_cons, List.sum_cons, Function.comp_apply] at ih ⊢
    omega

theorem timeMember_length (k : String) (hk : (str k).length = 3) (t : Int) : textsSize (timeMember timeText k t) ≤ 27 := by
  unfold timeMember
  split
  · simp [textsSize]
  · have := timeText_length t
    have e1 : (str "\"").length = 1 := rfl
    have e2 : (str "\":").length = 2 := rfl
    simp only [textsSize, List.map_cons, List.map_nil, List.sum_cons, List.sum_nil, List.length_append, e1, e2, hk]
    omega

theorem strMember_length (k : String) (hk : (str k).length = 3) (v : Ptr) (n : Nat) : textsSize (strMember k v n) ≤ 9 + 6 * textSize v n := by
  unfold strMember textSize givenText
  cases v with
  | none => simp [textsSize]
  | some b =>
    have := escape_length_le (arg b.mem n)
    have e1 : (str "\"").length = 1 := rfl
    have e2 : (str "\":\"").length = 3 := rfl
    simp only [textsSize, List.map_cons, List.map_nil, List.sum_cons, List.sum_nil, List.length_append, e1, e2, hk, Option.map_some, Option.getD_some]
    omega

theorem header_length {e : EncParams} {name : String} {sch : Scheme} (ha : alg? e.alg = some (name, sch)) :
    (writtenHeader e name).length ≤ 63 + 6 * givenSize e.headerClaims e.headerClaimsCount := by
  have hb : (commaSep (headerBase name)).length ≤ 60 := by
    have key : ∀ x ∈ algs, (commaSep (headerBase x.1)).length ≤ 60 := by decide +kernel
    have hm : (name, sch) ∈ algs := by
      unfold alg? at ha
      split at ha
      · cases ha
      · exact List.mem_of_getElem? ha
    generalize algs = l at key hm
    exact key (name, sch) hm
  have h1 := commaSep_length (extra e.headerClaims e.headerClaimsCount)
  have h2 := extra_length e.headerClaims e.headerClaimsCount
  have e1 : (str "{").length = 1 := rfl
  have e2 : (str "}").length = 1 := rfl
  have e3 : (str ",").length = 1 := rfl
  unfold writtenHeader headerTail
  simp only [List.length_append, e1, e2]
  split <;> simp only [List.length_append, List.length_nil, e3] <;> omega

theorem payload_length (e : EncParams) : (writtenPayload e).length ≤ 120 + 6 * (textSize e.iss e.issLength + textSize e.sub e.subLength +
    textSize e.aud e.audLength + textSize e.jti e.jtiLength + givenSize e.payloadClaims e.payloadClaimsCount) := by
  have h1 := commaSep_length (extra e.payloadClaims e.payloadClaimsCount)
  have h2 := extra_length e.payloadClaims e.payloadClaimsCount
  have h3 := commaSep_length (registeredWith timeText e)
  unfold registeredWith at h3
  simp only [textsSize_append] at h3
  have t1 := timeMember_length "iat" rfl e.iat
  have t2 := timeMember_length "nbf" rfl e.nbf
  have t3 := timeMember_length "exp" rfl e.exp
  have s1 := strMember_length "sub" rfl e.sub e.subLength
  have s2 := strMember_length "iss" rfl e.iss e.issLength
  have s3 := strMember_length "aud" rfl e.aud e.audLength
  have s4 := strMember_length "jti" rfl e.jti e.jtiLength
  have e1 : (str "{").length = 1 := rfl
  have e2 : (str "}").length = 1 := rfl
  have e3 : (str ",").length = 1 := rfl
  unfold writtenPayload payloadForm registeredWith
  simp only [List.length_append, e1, e2]
  split
  · simp only [List.length_append]
    split <;> simp only [List.length_nil, e3] <;> omega
  · simp only [List.length_nil]; omega

/-- C71: a token is not larger than eight times what it is asked to contain, plus the signature (of at most 4096 bytes) and the fixed
members; whatever allocations fail. -/
theorem C71_encode (hc : CryptoOk env.crypto) {e : EncParams} {r : EncOut} (hok : TextsOk env e) (he : encode env (some e) s h = .ok (r, h'))
    (hr : r.rc = L8W8JWT_SUCCESS) : ∃ n, r.outLength = some n ∧ n ≤ 8 * requestSize e + 5711 := by
  by_cases hv : validateEncodingParams (some e) = L8W8JWT_SUCCESS
  · have := wp_iff_forall.mp (wp_encode_texts (s := s) (h := h) env hc e hok (fun _ => True) hv (Or.inr fun _ => trivial)) r h' he
    obtain ⟨-, hdr, pay, sig, tok, id, msg, ⟨name, sch, ha, hh⟩, hp, hs, n1, n2, n3, e1, e2, -, -, u1, u2⟩ := this.success hr
    refine ⟨_, e2, ?_⟩
    have l1 : hdr.length ≤ (writtenHeader e name).length := hh.1
    have l2 : pay.length ≤ (writtenPayload e).length := hp.1
    have l3 : sig.length ≤ 4096 := hs.2.1
    have l4 := u1.1
    have l5 := u2.1
    have l6 := header_length (e := e) ha
    have l7 := payload_length e
    have ed : (str ".").length = 1 := rfl
    simp only [List.length_append, b64_length, ed] at l4 l5
    unfold requestSize
    omega
  · rw [C16_encode_invalid _ hv] at he; cases he; exact absurd hr hv

/-- A subject of 60 control characters. -/
def wideParams : EncParams := { toyParams with sub := some ⟨0, List.replicate 60 1 ++ [0]⟩, subLength := 60 }

/-- The factor is reached: 60 bytes of request make the token 491 characters longer (11 for the member itself). -/
example : requestSize wideParams = 60 ∧ requestSize toyParams = 0 ∧ (tokenOf toy wideParams).map List.length = some 576 ∧
    (tokenOf toy toyParams).map List.length = some 85 := by decide +kernel

end L8w8jwt
