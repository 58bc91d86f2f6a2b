import Verif.Model.Decode
import Verif.Proofs.Claim
/-!
# C11-C15: claim.c
-/

namespace L8w8jwt
open Spec

variable {cap : Nat} {s : Sched} {h : Heap}

/-! ## C14 -/

/-- C14: with readable claims, `l8w8jwt_write_claims` appends exactly the comma-separated members, and leaves the set of
live blocks unchanged; the only other outcome is OUT_OF_MEM with the buffer untouched. -/
theorem C14_write_claims_exact (g : s.noGrowFail) (cs : Bool) (buf : Bytes) (claims : List Claim) (hne : claims ≠ [])
    (hok : ∀ c ∈ claims, claimOk c) (ha : cs = true → ∀ c ∈ claims, ∀ m, member c = some m → m.ascii) :
    ∃ rc b h', writeClaims cap cs (some buf) (some claims) claims.length s h = .ok ((rc, some b), h') ∧ h'.live = h.live ∧
      ((rc = L8W8JWT_SUCCESS ∧ b = buf ++ commaSep (memberTexts claims)) ∨
       (rc = L8W8JWT_OUT_OF_MEM ∧ b = buf ∧ s.failAlloc h.tick = true)) := by
  have key := wp_writeClaims (cap := cap) (s := s) (h := h) cs buf claims claims.length (Nat.le_refl _) (by simpa using hne)
    (by simpa using hok) (by simpa using ha)
  obtain ⟨⟨rc, o⟩, h', e, hk, hd⟩ := wp_iff_exists.mp key
  rw [List.take_length] at hd
  simp only at hd
  rcases hd with ⟨h1, t, rfl, h2⟩ | ⟨h1, rfl, h3⟩
  · exact ⟨rc, _, h', e, hk.1, Or.inl ⟨h1, by rw [h2.2 (Or.inl g)]⟩⟩
  · exact ⟨rc, _, h', e, hk.1, Or.inr ⟨h1, rfl, h3⟩⟩

/-- C14: NULL arguments are reported and nothing is written. -/
theorem C14_write_claims_null (cs : Bool) (b : Option Bytes) (claims : Option (List Claim)) (count : Nat)
    (hn : b = none ∨ claims = none) : writeClaims cap cs b claims count s h = .ok ((L8W8JWT_NULL_ARG, b), h) := by
  rcases hn with rfl | rfl
  · cases claims <;> rfl
  · cases b <;> rfl

/-- C14: a zero count is reported and nothing is written. -/
theorem C14_write_claims_zero (cs : Bool) (b : Bytes) (claims : List Claim) :
    writeClaims cap cs (some b) (some claims) 0 s h = .ok ((L8W8JWT_INVALID_ARG, some b), h) := rfl

/-- A claim with the given key, value and type, for examples. -/
def exClaim (k v : String) (type : Int) : Claim :=
  { key := some ⟨0, str k ++ [0]⟩, keyLength := 0, value := some ⟨0, str v ++ [0]⟩, valueLength := 0, type := type }

example : runs (writeClaims 256 true (some (str "{")) (some [exClaim "a\"b" "x/y\n" L8W8JWT_CLAIM_TYPE_STRING,
    { exClaim "" "" 0 with key := none }, exClaim "n" "17" L8W8JWT_CLAIM_TYPE_INTEGER]) 3)
    (· == (0, some (str "{\"a\\\"b\":\"x\\/y\\n\",\"n\":17"))) = true := by decide +kernel

/-! ## C11 -/

theorem readMember_text (m : Member) (hs : m.isString = true) (rest : Bytes) :
    readMember (m.text ++ rest) = some ((arg m.key m.keyLength, arg m.value m.valueLength), rest) := by
  have e : m.text ++ rest = 34 :: (escape (arg m.key m.keyLength) ++ 34 :: 58 :: 34 ::
      (escape (arg m.value m.valueLength) ++ 34 :: rest)) := by
    simp only [Member.text, hs, if_true]
    simp [str]
  rw [e]
  simp only [readMember, lexString_escape]
  simp

theorem readMembers_commaSep (ms : List Member) (hne : ms ≠ []) (hs : ∀ m ∈ ms, m.isString = true) (f : Nat)
    (hf : ms.length ≤ f) : readMembers f (commaSep (ms.map Member.text)) =
      some (ms.map fun m => (arg m.key m.keyLength, arg m.value m.valueLength)) := by
  induction ms generalizing f with
  | nil => exact absurd rfl hne
  | cons m t ih =>
    cases f with
    | zero => simp at hf
    | succ f =>
      cases t with
      | nil =>
        have := readMember_text m (hs m (by simp)) []
        simp only [List.append_nil] at this
        simp [readMembers, commaSep, this]
      | cons m' t' =>
        have h1 := readMember_text m (hs m (by simp)) (44 :: commaSep ((m' :: t').map Member.text))
        have h2 := ih (by simp) (fun x hx => hs x (by simp [hx])) f (by simpa using hf)
        have e : commaSep ((m :: m' :: t').map Member.text) = m.text ++ 44 :: commaSep ((m' :: t').map Member.text) := by
          simp [commaSep, str]
        rw [e]
        simp only [readMembers, h1, if_true, h2]
        simp

/-- C11: for string claims with arbitrary contents, an independent JSON reader reads back from the text that
`l8w8jwt_write_claims` appended exactly the given keys and values: no content ends a string early, adds or removes a
member. -/
theorem C11_no_breakout (g : s.noGrowFail) (cs : Bool) (buf : Bytes) (claims : List Claim) (hne : claims ≠ [])
    (hok : ∀ c ∈ claims, ∃ m, member c = some m ∧ m.ok ∧ m.isString = true ∧ (cs = true → m.ascii))
    (rc : Nat) (b : Bytes) (h' : Heap)
    (hr : writeClaims cap cs (some buf) (some claims) claims.length s h = .ok ((rc, some b), h')) (hs : rc = L8W8JWT_SUCCESS) :
    ∃ t, b = buf ++ t ∧ readMembers claims.length t =
      some ((claims.filterMap member).map fun m => (arg m.key m.keyLength, arg m.value m.valueLength)) := by
  obtain ⟨rc', b', h'', e, -, hd⟩ := C14_write_claims_exact (h := h) g cs buf claims hne
    (fun c hc => by obtain ⟨m, hm, ho, -⟩ := hok c hc; exact Or.inr ⟨m, hm, ho⟩)
    (fun hcs c hc m hm => by obtain ⟨m', hm', _, _, ha⟩ := hok c hc; rw [hm] at hm'; cases hm'; exact ha hcs)
  rw [hr] at e
  simp only [Except.ok.injEq, Prod.mk.injEq, Option.some.injEq] at e
  obtain ⟨⟨rfl, rfl⟩, rfl⟩ := e
  rcases hd with ⟨-, rfl⟩ | ⟨ho, -⟩
  · refine ⟨_, rfl, readMembers_commaSep _ ?_ ?_ _ (List.length_filterMap_le _ _)⟩
    · obtain ⟨c, t, rfl⟩ := List.exists_cons_of_ne_nil hne
      obtain ⟨m, hm, -⟩ := hok c (by simp)
      simp [hm]
    · intro m hm
      obtain ⟨c, hc, hcm⟩ := List.mem_filterMap.mp hm
      obtain ⟨m', hm', _, hst, _⟩ := hok c hc
      rw [hcm] at hm'; cases hm'; exact hst
  · rw [hs] at ho; exact absurd ho (by decide)

/-- C11 for keys in front of values of any type: after the opening quote, the lexer reads the key back and stops at the
colon that precedes the value. -/
theorem C11_key_no_breakout (m : Member) (rest : Bytes) :
    ∃ t, m.text ++ rest = 34 :: t ∧ ∃ r, lexString t = some (arg m.key m.keyLength, 58 :: r) := by
  refine ⟨escape (arg m.key m.keyLength) ++ 34 :: 58 ::
    ((if m.isString then str "\"" ++ escape (arg m.value m.valueLength) ++ str "\"" else arg m.value m.valueLength) ++ rest),
    ?_, _, lexString_escape _ _⟩
  simp [Member.text, str]

example : readMembers 5 (str "\"k\":\"a\\\",\\\"admin\\\":\\\"1\",\"x\":\"y\"") =
    some [(str "k", str "a\",\"admin\":\"1"), (str "x", str "y")] := by decide +kernel
/-- A text in which the value was not escaped is read differently. -/
example : readMembers 5 (str "\"k\":\"a\",\"admin\":\"1\"") = some [(str "k", str "a"), (str "admin", str "1")] := by
  decide +kernel

/-! ## C12 -/

/-- The control characters written as `\u00XX`. -/
def uEscaped (c : UInt8) : Bool := (c < 32 && c != 8 && c != 9 && c != 10 && c != 12 && c != 13) || c == 127

/-- What the decoder makes of an escaped character. -/
def reread (c : UInt8) : Bytes := if uEscaped c then escapeByte c else [c]

theorem unescape_append_plain (c : UInt8) (hc : c ≠ 92) (t : Bytes) : unescapeString (c :: t) = c :: unescapeString t := by
  cases t with
  | nil => simp [unescapeString]
  | cons d t => simp [unescapeString, hc]

theorem unescape_escapeByte (c : UInt8) (t : Bytes) : unescapeString (escapeByte c ++ t) = reread c ++ unescapeString t := by
  have key : ∀ j : Fin 256, let c := UInt8.ofNat j.val
      (uEscaped c = true ∧ (∃ x y, escapeByte c = [92, 117, 48, 48, x, y] ∧ x ≠ 92 ∧ y ≠ 92)) ∨
      (uEscaped c = false ∧ ((∃ e, escapeByte c = [92, e] ∧ unescapeChar e = some c) ∨ (escapeByte c = [c] ∧ c ≠ 92))) := by
    intro j
    have a : ∀ j : Fin 256, let c := UInt8.ofNat j.val
        (uEscaped c = true ∧ escapeByte c = [92, 117, 48, 48, hexNib (c.toNat / 16), hexNib (c.toNat % 16)] ∧
          hexNib (c.toNat / 16) ≠ 92 ∧ hexNib (c.toNat % 16) ≠ 92) ∨
        (uEscaped c = false ∧ ((escapeByte c = [92, (escapeByte c).getD 1 0] ∧ unescapeChar ((escapeByte c).getD 1 0) = some c) ∨
          (escapeByte c = [c] ∧ c ≠ 92))) := by decide +kernel
    rcases a j with ⟨h1, h2, h3, h4⟩ | ⟨h1, ⟨h2, h3⟩ | h2⟩
    · exact Or.inl ⟨h1, _, _, h2, h3, h4⟩
    · exact Or.inr ⟨h1, Or.inl ⟨_, h2, h3⟩⟩
    · exact Or.inr ⟨h1, Or.inr h2⟩
  have := key ⟨c.toNat, c.toNat_lt⟩
  simp only [UInt8.ofNat_toNat] at this
  rcases this with ⟨h1, x, y, h2, h3, h4⟩ | ⟨h1, ⟨e, h2, h3⟩ | ⟨h2, h3⟩⟩
  · have hu : unescapeChar 117 = none := by decide
    simp only [reread, h1, if_true, h2, List.cons_append, List.nil_append]
    rw [unescapeString]
    simp only [hu, if_true]
    rw [unescape_append_plain _ (by decide), unescape_append_plain _ (by decide), unescape_append_plain _ (by decide),
      unescape_append_plain _ h3, unescape_append_plain _ h4]
  · simp only [reread, h1, h2, List.cons_append, List.nil_append]
    rw [unescapeString]
    simp [h3]
  · simp only [reread, h1, h2, List.cons_append, List.nil_append]
    rw [unescape_append_plain _ h3]; simp

theorem unescape_escape (t : Bytes) : unescapeString (escape t) = t.flatMap reread := by
  induction t with
  | nil => rfl
  | cons c t ih =>
    simp only [escape, List.flatMap_cons] at *
    rw [unescape_escapeByte, ih]

theorem reread_length (c : UInt8) : (reread c).length = if uEscaped c then 6 else 1 := by
  have key : ∀ j : Fin 256, (reread (UInt8.ofNat j.val)).length = if uEscaped (UInt8.ofNat j.val) then 6 else 1 := by
    decide +kernel
  have := key ⟨c.toNat, c.toNat_lt⟩
  simpa only [UInt8.ofNat_toNat] using this

theorem reread_flatMap_length (t : Bytes) : t.length ≤ (t.flatMap reread).length ∧
    ((∃ c ∈ t, uEscaped c = true) → t.length < (t.flatMap reread).length) := by
  induction t with
  | nil => simp
  | cons c t ih =>
    have := reread_length c
    simp only [List.flatMap_cons, List.length_append, List.length_cons, List.mem_cons]
    split at this
    · exact ⟨by omega, fun _ => by omega⟩
    · rename_i hc
      refine ⟨by omega, ?_⟩
      rintro ⟨x, rfl | hx, hu⟩
      · exact absurd hu hc
      · have := ih.2 ⟨x, hx, hu⟩; omega

/-- C12 is false: the string consisting of the control character 1 is written as `\u0001` and read back as these six
characters; another string (`\u0001` typed literally) is read back as the same. -/
theorem C12_escape_roundtrip_false : unescapeString (escape [1]) ≠ [1] ∧
    unescapeString (escape [1]) = unescapeString (escape (str "\\u0001")) ∧ [1] ≠ str "\\u0001" := by decide +kernel

/-- C12, exactly: a string survives writing and reading if and only if it contains no character that is written as
`\u00XX` (control characters other than backspace, tab, newline, form feed, carriage return; and DEL). Missing for the
full statement: those characters, for which it is false. -/
theorem C12_escape_roundtrip_partial (t : Bytes) : unescapeString (escape t) = t ↔ ∀ c ∈ t, uEscaped c = false := by
  rw [unescape_escape]
  constructor
  · intro he c hc
    cases hu : uEscaped c with
    | false => rfl
    | true =>
      have := (reread_flatMap_length t).2 ⟨c, hc, hu⟩
      rw [he] at this
      exact absurd this (Nat.lt_irrefl _)
  · intro hu
    induction t with
    | nil => rfl
    | cons c t ih =>
      simp only [List.flatMap_cons, reread, hu c (by simp)]
      rw [ih (fun x hx => hu x (by simp [hx]))]
      simp

example : unescapeString (escape (str "a\"b\\c/d\t\n")) = str "a\"b\\c/d\t\n" := by decide +kernel

/-! ## C13 -/

/-- C13, the part that holds: with unsigned `char`, or if the characters of keys and string values are ASCII, writing
claims is defined under every schedule of allocation failures (and does not change the live blocks). Missing for the full
statement: bytes from 0x80 on with signed `char`, for which it is false. -/
theorem C13_write_claims_defined_partial (cs : Bool) (buf : Bytes) (claims : List Claim)
    (hok : ∀ c ∈ claims, claimOk c) (ha : cs = true → ∀ c ∈ claims, ∀ m, member c = some m → m.ascii) :
    ∃ r h', writeClaims cap cs (some buf) (some claims) claims.length s h = .ok (r, h') ∧ h'.live = h.live := by
  by_cases hne : claims = []
  · subst hne; exact ⟨_, _, rfl, rfl⟩
  · have key := wp_writeClaims (cap := cap) (s := s) (h := h) cs buf claims claims.length (Nat.le_refl _) (by simpa using hne)
      (by simpa using hok) (by simpa using ha)
    obtain ⟨r, h', e, hk, -⟩ := wp_iff_exists.mp key
    exact ⟨r, h', e, hk.1⟩

theorem escapeLoop_bad (buf txt : Bytes) (hb : ∃ c ∈ txt, 128 ≤ c) : escapeLoop true buf txt s h = .error .badIndex := by
  induction txt generalizing buf h with
  | nil => simp at hb
  | cons c t ih =>
    by_cases hc : 128 ≤ c
    · simp only [escapeLoop, escapeChar_bad c hc, run_bind, run_lift_error]
    · have hc' : c < 128 := by
        rw [UInt8.lt_iff_toNat_lt]; rw [UInt8.le_iff_toNat_le] at hc; omega
      simp only [escapeLoop, escapeChar_eq true c (fun _ => hc'), run_bind, run_lift_ok]
      have ht : ∃ c ∈ t, 128 ≤ c := by
        obtain ⟨x, hx, hx'⟩ := hb
        rcases List.mem_cons.mp hx with rfl | hx
        · exact absurd hx' hc
        · exact ⟨x, hx, hx'⟩
      unfold push
      cases s.failGrow h.tick with
      | none => exact ih _ ht
      | some j => exact ih _ ht

/-- C13 is false, for every string with a byte from 0x80 on (so for all non-ASCII UTF-8 text): where `char` is signed,
writing a string claim with such a value indexes the escape table out of bounds, whatever the rest of the claim. -/
theorem C13_write_claims_defined_false (buf : Bytes) (k v : Block) (n : Nat) (hk : argOk k.mem n)
    (hka : ∀ c ∈ arg k.mem n, c < 128) (m : Nat) (hv : argOk v.mem m) (hb : ∃ c ∈ arg v.mem m, 128 ≤ c)
    (ha : s.failAlloc h.tick = false) :
    writeClaims cap true (some buf) (some [⟨some k, n, some v, m, L8W8JWT_CLAIM_TYPE_STRING⟩]) 1 s h = .error .badIndex := by
  obtain ⟨ki, k⟩ := k
  obtain ⟨vi, v⟩ := v
  obtain ⟨k1, k2, k3⟩ := lenOrStrlen_eq ki k n hk
  obtain ⟨v1, v2, v3⟩ := lenOrStrlen_eq vi v m hv
  have key : wp (writeClaims cap true (some buf) (some [⟨some ⟨ki, k⟩, n, some ⟨vi, v⟩, m, L8W8JWT_CLAIM_TYPE_STRING⟩]) 1) s h
      (fun _ _ => False) (· = .badIndex) := by
    simp only [writeClaims, Nat.one_ne_zero, if_false, wp_bind, wp_alloc, ha, Bool.false_eq_true, false_implies, true_and,
      forall_const, wp_lift, rdN, List.length_singleton, Nat.le_refl, if_true, rwp_ok, List.take_succ_cons, List.take_zero,
      writeClaimsLoop, writeClaim, wp_pure, k1, v1]
    refine wp_mono (wp_escapeClaimString true ki k n hk (fun _ => hka)) ?_ (fun _ h => h.elim)
    intro e h1 hl1
    refine wp_push_any _ _ _ _ (fun l => wp_push_any _ _ _ _ (fun l => wp_push_any _ _ _ _ (fun l =>
      wp_push_any _ _ _ _ (fun l => ?_))))
    simp only [escapeClaimString, wp_bind, wp_lift, Ptr.bytes, Option.map_some, deref, rwp_ok, rdN, v2, if_true, v3]
    unfold wp
    rw [escapeLoop_bad _ _ hb]
  unfold wp at key
  split at key
  · exact key.elim
  · rename_i e he; rw [he, key]

example : writeClaims 256 true (some []) (some [exClaim "sub" "Jörg" L8W8JWT_CLAIM_TYPE_STRING]) 1 calm heap0
    = .error .badIndex := by decide +kernel
example : runs (writeClaims 256 false (some []) (some [exClaim "sub" "Jörg" L8W8JWT_CLAIM_TYPE_STRING]) 1)
    (· == (0, some (str "\"sub\":\"Jörg\""))) = true := by decide +kernel

/-! ## C15 -/

theorem strncmp_prefix (mem k : Bytes) (n : Nat) (hm : 0 ∈ mem) (hn : n ≤ k.length) (hk : ∀ c ∈ k.take n, c ≠ 0) :
    ∃ r, strncmp mem k n = .ok r ∧ (r = 0 ↔ (k.take n).isPrefixOf (cString mem) = true) := by
  induction n generalizing mem k with
  | zero => exact ⟨0, by simp [strncmp], by simp⟩
  | succ n ih =>
    cases k with
    | nil => simp at hn
    | cons y k =>
      cases mem with
      | nil => simp at hm
      | cons x mem =>
        have hy : y ≠ 0 := hk y (by simp)
        by_cases hxy : x = y
        · subst hxy
          obtain ⟨r, h1, h2⟩ := ih mem k (by simpa [Ne.symm hy] using hm) (by simpa using hn)
            (fun c hc => hk c (by simp [hc]))
          refine ⟨r, by simp [strncmp, hy, h1], ?_⟩
          rw [h2]; simp [cString, hy]
        · refine ⟨_, by simp only [strncmp]; rw [if_pos hxy], ?_⟩
          have hne : ((x.toNat : Int) - (y.toNat : Int)) ≠ 0 := by
            intro h0
            apply hxy
            have : x.toNat = y.toNat := by omega
            exact UInt8.toNat_inj.mp this
          simp only [hne, false_iff]
          by_cases hx : x = 0
          · subst hx; simp [cString]
          · simp [cString, hx, Ne.symm hxy]

theorem getClaimLoop_eq (k : Bytes) (n : Nat) (hn : n ≤ k.length) (hk : ∀ c ∈ k.take n, c ≠ 0) (claims : List Claim)
    (hc : ∀ c ∈ claims, ∃ b, c.key = some b ∧ 0 ∈ b.mem) :
    getClaimLoop k n claims claims.length = .ok (findClaim (fun x => (k.take n).isPrefixOf x) claims) := by
  induction claims with
  | nil => rfl
  | cons c t ih =>
    obtain ⟨b, hb, hz⟩ := hc c (by simp)
    obtain ⟨r, h1, h2⟩ := strncmp_prefix b.mem k n hz hn hk
    have iht := ih (fun c hc' => hc c (by simp [hc']))
    simp only [List.length_cons, getClaimLoop, hb, Ptr.bytes, Option.map_some, deref, bind, Except.bind, h1, findClaim, claimKey]
    by_cases hr : r = 0
    · simp [hr, h2.mp hr]
    · have : (k.take n).isPrefixOf (cString b.mem) = false := by
        cases hh : (k.take n).isPrefixOf (cString b.mem) with
        | false => rfl
        | true => exact absurd (h2.mpr hh) hr
      simp [hr, this, iht]

/-- C15 is false: asked for `"ab"`, `l8w8jwt_get_claim` returns the claim `"abc"`, although a claim `"ab"` exists. -/
theorem C15_get_claim_false : ∃ claims, getClaim (some claims) claims.length (some (str "ab" ++ [0])) 2 = .ok (some 0) ∧
    claims.map claimKey = [str "abc", str "ab"] :=
  ⟨[exClaim "abc" "1" 0, exClaim "ab" "2" 0], by decide +kernel, by decide +kernel⟩

/-- C15, exactly: `l8w8jwt_get_claim` returns the first claim whose key *starts with* the requested key. It is the first
claim whose key *equals* it provided no claim's key is a proper extension of it. Missing for the full statement: arrays with
such keys, for which it is false. -/
theorem C15_get_claim_partial (claims : List Claim) (k : Bytes) (n : Nat) (h0 : n ≠ 0) (hn : n ≤ k.length)
    (hk : ∀ c ∈ k.take n, c ≠ 0) (hc : ∀ c ∈ claims, ∃ b, c.key = some b ∧ 0 ∈ b.mem) :
    getClaim (some claims) claims.length (some k) n = .ok (findClaim (fun x => (k.take n).isPrefixOf x) claims) ∧
    ((∀ c ∈ claims, (k.take n).isPrefixOf (claimKey c) → claimKey c = k.take n) →
      getClaim (some claims) claims.length (some k) n = .ok (findClaim (fun x => x == k.take n) claims)) := by
  have h1 : getClaim (some claims) claims.length (some k) n =
      .ok (findClaim (fun x => (k.take n).isPrefixOf x) claims) := by
    simp only [getClaim]
    by_cases hl : claims = []
    · subst hl; simp [findClaim]
    · have : ¬ (claims.length = 0 ∨ n = 0) := by simp [hl, h0]
      rw [if_neg this]
      exact getClaimLoop_eq k n hn hk claims hc
  refine ⟨h1, fun hx => ?_⟩
  rw [h1]
  congr 1
  clear h1 hc
  induction claims with
  | nil => rfl
  | cons c t ih =>
    have iht := ih (fun c hc => hx c (by simp [hc]))
    simp only [findClaim, iht]
    have : (k.take n).isPrefixOf (claimKey c) = (claimKey c == k.take n) := by
      cases hh : (k.take n).isPrefixOf (claimKey c) with
      | true => rw [hx c (by simp) hh]; simp
      | false =>
        symm
        rw [beq_eq_false_iff_ne]
        intro he
        rw [he, ← Bool.not_eq_true, List.isPrefixOf_iff_prefix] at hh
        exact hh (List.prefix_refl _)
    rw [this]

/-- C15: NULL arguments and zero lengths find nothing. -/
theorem C15_get_claim_null (claims : Option (List Claim)) (count : Nat) (k : Option Bytes) (n : Nat)
    (hn : claims = none ∨ k = none ∨ count = 0 ∨ n = 0) : getClaim claims count k n = .ok none := by
  cases claims <;> cases k <;> simp_all [getClaim]

example : getClaim (some [exClaim "sub" "x" 0, exClaim "exp" "1" 1]) 2 (some (str "exp" ++ [0])) 3 = .ok (some 1) := by
  decide +kernel

end L8w8jwt
