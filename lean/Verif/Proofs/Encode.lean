import Verif.Spec.Encode
import Verif.Proofs.Claim
import Verif.Proofs.Base64Enc
import Verif.Props.Util
/-!
# encode.c
-/

namespace L8w8jwt
open Spec

variable {s : Sched} {h : Heap}

/-! ## Base64 segments -/

/-- `l8w8jwt_base64_encode` of a whole buffer in url mode, under any schedule. -/
theorem wp_b64enc (d : Bytes) (Q : BufOut → Heap → Prop) (E : UB → Prop)
    (hE : 4 * ((d.length + 2) / 3) ≤ intMax ∨ ∀ e, E e)
    (hfail : ∀ r h', r.rc ≠ L8W8JWT_SUCCESS → Keeps h h' →
      (d = [] ∨ 2 ^ 62 ≤ d.length) ∨ ((∃ k, s.failAlloc k = true) ∧ r.rc = L8W8JWT_OUT_OF_MEM) → Q r h')
    (hok : d ≠ [] → b64Fits d.length → s.failAlloc h.tick = false → Q { rc := L8W8JWT_SUCCESS, out := some (some ⟨h.tick, encMem true d⟩), len := some (b64 true d).length }
      { tick := h.tick + 1, live := h.tick :: h.live }) :
    wp (base64Encode true (some d) d.length false false) s h Q E := by
  by_cases h0 : d.length = 0
  · have hd : d = [] := List.length_eq_zero_iff.mp h0
    unfold wp base64Encode
    simp only [h0, Bool.or_self, Bool.false_eq_true, if_false, if_true, run_pure]
    exact hfail _ _ (by decide) (Keeps.refl h) (Or.inl (Or.inl hd))
  by_cases h1 : 2 ^ 64 ≤ d.length
  · have hov : b64OutSize d.length < d.length := by
      have : b64OutSize d.length < sizeMod := by unfold b64OutSize; exact Nat.mod_lt _ (by decide)
      simp only [sizeMod] at this; omega
    unfold wp base64Encode
    simp only [Bool.or_self, Bool.false_eq_true, if_false, h0, hov, if_true, run_pure]
    exact hfail _ _ (by decide) (Keeps.refl h) (Or.inl (Or.inr (by omega)))
  by_cases h2 : 2 ^ 62 ≤ d.length
  · unfold wp
    rw [base64Encode_toolarge true d d.length s h h2 (by omega)]
    exact hfail _ _ (by decide) (Keeps.refl h) (Or.inl (Or.inr h2))
  by_cases h3 : 4 * ((d.length + 2) / 3) ≤ intMax
  · unfold wp
    rw [base64Encode_eq true d d.length s h (Nat.le_refl _) h0 (by omega) (fun _ => h3)]
    cases hf : s.failAlloc h.tick with
    | true => exact hfail _ _ (by decide) (Keeps.tick h) (Or.inr ⟨⟨_, hf⟩, rfl⟩)
    | false =>
      simp only [Bool.false_eq_true, if_false, List.take_length]
      exact hok (by rintro rfl; simp at h0) h3 hf
  · unfold wp
    rw [base64Encode_overflow d d.length s h (Nat.le_refl _) (by omega) (by omega)]
    cases hf : s.failAlloc h.tick with
    | true => exact hfail _ _ (by decide) (Keeps.tick h) (Or.inr ⟨⟨_, hf⟩, rfl⟩)
    | false =>
      rcases hE with hE | hE
      · exact absurd hE h3
      · exact hE _

theorem rdN_encMem (d : Bytes) : rdN (encMem true d) (b64 true d).length = .ok (b64 true d) := by
  simp [rdN, encMem, b64Text]

/-! ## Claims with ignored errors -/

theorem wp_writeClaimsIgnore (env : Env) (buf : Bytes) (claims : Option (List Claim)) (n : Nat) (h0 : n ≠ 0)
    (hok : claimsOk env.charSigned claims n) :
    wp (writeClaimsIgnore env buf claims n) s h (fun b h' => Keeps h h' ∧ ∃ t, b = buf ++ t ∧
      t.length ≤ (commaSep (extra claims n)).length ∧ (s.noGrowFail ∨ buf.length + (commaSep (extra claims n)).length ≤ 256 → (t = commaSep (extra claims n) ∨ t = []) ∧
        ((∀ k, s.failAlloc k = false) → t = commaSep (extra claims n)))) (fun _ => False) := by
  simp only [writeClaimsIgnore, wp_bind]
  cases claims with
  | none =>
    exact ⟨Keeps.refl h, [], by simp, by simp, fun _ => ⟨Or.inr rfl,
      fun _ => by simp [extra, memberTexts, commaSep]⟩⟩
  | some l =>
    obtain ⟨h1, h2, h3⟩ := hok l rfl
    refine wp_mono (wp_writeClaims env.charSigned buf l n h1 h0 h2 h3) ?_ (fun _ h => h)
    rintro ⟨rc, o⟩ h' ⟨hk, hd⟩
    rw [wp_pure]
    simp only at hd
    refine ⟨hk, ?_⟩
    rcases hd with ⟨-, t, rfl, hu⟩ | ⟨-, rfl, hf⟩
    · exact ⟨t, rfl, hu.1, fun g => ⟨Or.inl (hu.2 g), fun _ => hu.2 g⟩⟩
    · exact ⟨[], by simp, by simp, fun _ => ⟨Or.inr rfl, fun g => by simp [g] at hf⟩⟩

theorem keeps_writeClaimsIgnore (env : Env) (buf : Bytes) (claims : Option (List Claim)) (n : Nat) :
    KeepsM (writeClaimsIgnore env buf claims n) :=
  KeepsM.bind (keeps_writeClaims _ _ _ _) fun _ => KeepsM.pure _

/-! ## Header -/

theorem wp_headerText (env : Env) (p : EncParams) (buf : Bytes)
    (hok : claimsOk env.charSigned p.headerClaims p.headerClaimsCount) :
    wp (headerText env p buf) s h (fun b h' => Keeps h h' ∧ ∃ t, b = buf ++ t ∧
      t.length ≤ (headerTail p (extra p.headerClaims p.headerClaimsCount)).length ∧
      (s.noGrowFail ∨ buf.length + (headerTail p (extra p.headerClaims p.headerClaimsCount)).length ≤ 256 →
        (t = headerTail p (extra p.headerClaims p.headerClaimsCount) ∨ t = headerTail p []) ∧
        ((∀ k, s.failAlloc k = false) → t = headerTail p (extra p.headerClaims p.headerClaimsCount)))) (fun _ => False) := by
  simp only [headerText, wp_bind, headerTail]
  by_cases hc : 0 < p.headerClaimsCount
  · simp only [hc, if_true, wp_bind]
    refine wp_push' _ _ _ _ fun t1 u1 => ?_
    refine wp_mono (wp_writeClaimsIgnore env _ _ _ (by omega) hok) ?_ (fun _ h => h)
    rintro b h1 ⟨hk, t2, rfl, l2, n2⟩
    refine wp_push' _ _ _ _ fun t3 u3 => ?_
    have m1 := u1.1
    have m3 := u3.1
    refine ⟨(Keeps.tick _).trans (hk.trans (Keeps.tick _)), t1 ++ t2 ++ t3, by simp, ?_, fun g => ?_⟩
    · simp at *; omega
    · simp only [List.length_append] at *
      obtain ⟨n2, g2⟩ := n2 (g.imp id (by omega))
      rw [u1.2 (g.imp id (by omega)), u3.2 (g.imp id (by omega))]
      refine ⟨?_, fun ha => by rw [g2 ha]⟩
      rcases n2 with h | h <;> simp [h, commaSep]
  · simp only [hc, if_false, wp_pure]
    refine wp_push' _ _ _ _ fun t1 u1 => ?_
    exact ⟨Keeps.tick _, t1, rfl, by simpa using u1.1, fun g => by
      have := u1.2 (by simpa using g)
      exact ⟨Or.inl (by simpa using this), fun _ => by simpa using this⟩⟩

theorem keeps_headerText (env : Env) (p : EncParams) (buf : Bytes) : KeepsM (headerText env p buf) :=
  KeepsM.bind (KeepsM.ite (KeepsM.bind (KeepsM.push _ _) fun _ => keeps_writeClaimsIgnore _ _ _ _) (KeepsM.pure _))
    fun _ => KeepsM.push _ _

/-! ## Decimal numbers -/

theorem decimalAux_eq (f n : Nat) (h : n ≤ f) : decimalAux f n = natText n := by
  induction f generalizing n with
  | zero => obtain rfl : n = 0 := by omega
            simp [decimalAux, natText]
  | succ f ih =>
    rw [decimalAux, natText]
    split
    · rfl
    · rw [ih _ (by omega)]

theorem decimal_eq (n : Nat) : decimal n = natText n := decimalAux_eq n n (Nat.le_refl _)

theorem natText_length (n k : Nat) (hk : 0 < k) (h : n < 10 ^ k) : 0 < (natText n).length ∧ (natText n).length ≤ k := by
  induction k generalizing n with
  | zero => omega
  | succ k ih =>
    rw [natText]
    split
    · simp
    · rename_i hn
      have hk : 0 < k := by
        rcases Nat.eq_zero_or_pos k with rfl | hk
        · simp at h; omega
        · exact hk
      have := ih (n / 10) hk (by rw [Nat.div_lt_iff_lt_mul (by omega), ← Nat.pow_succ]; exact h)
      simp; omega

theorem natText_digit (n : Nat) : ∀ c ∈ natText n, 48 ≤ c.toNat ∧ c.toNat ≤ 57 := by
  fun_induction natText n with
  | case1 n h => simp [UInt8.toNat_ofNat']; omega
  | case2 n h ih =>
    intro c hc
    simp only [List.mem_append, List.mem_singleton] at hc
    rcases hc with hc | rfl
    · exact ih c hc
    · simp [UInt8.toNat_ofNat']; omega

theorem natText_ne_zero (n : Nat) (c : UInt8) (hc : c ∈ natText n) : c ≠ 0 := by
  have := natText_digit n c hc
  rintro rfl; simp at this

/-! ## Registered claims -/

theorem wrAt_field (a f c b : Bytes) (n : Nat) (hn : a.length = n) (hb : b.length ≤ f.length) :
    wrAt (a ++ f ++ c) n b = .ok (a ++ (b ++ f.drop b.length) ++ c) := by
  subst hn
  simp only [wrAt, List.length_append]
  rw [if_pos (by omega)]
  congr 1
  rw [List.append_assoc a f c, List.take_left' rfl, List.drop_append, List.drop_of_length_le (by omega), List.nil_append,
    Nat.add_sub_cancel_left, List.drop_append]
  simp [Nat.sub_eq_zero_of_le hb]

/-- The content of a field of the buffer `iatnbfexp`. -/
def field (n : Nat) (t : Int) : Bytes :=
  if t = 0 then List.replicate n 0 else padTo n (natText (toU64 t))

theorem toU64_lt (t : Int) : toU64 t < 18446744073709551616 := by unfold toU64; omega

theorem u64_length (t : Int) : 0 < (natText (toU64 t)).length ∧ (natText (toU64 t)).length ≤ 20 :=
  natText_length _ 20 (by omega) (Nat.lt_trans (toU64_lt t) (by decide))

theorem field_length (n : Nat) (t : Int) (hn : 20 ≤ n) : (field n t).length = n := by
  unfold field
  have := u64_length t
  split
  · simp
  · simp [padTo]; omega

theorem putTime_eq (a c : Bytes) (n m : Nat) (t : Int) (ha : a.length = n) (hm : 21 ≤ m) :
    putTime (a ++ List.replicate m 0 ++ c) n t = .ok (a ++ field m t ++ c) := by
  unfold putTime field
  have hl := u64_length t
  by_cases ht : t = 0
  · simp [ht]
  · simp only [ht, ne_eq, not_false_eq_true, if_true, if_false]
    have e : snprintfU64 21 (toU64 t) = natText (toU64 t) ++ [0] := by
      rw [snprintfU64, decimal_eq, List.take_of_length_le (by omega)]
    rw [e, wrAt_field _ _ _ _ _ ha (by simp; omega)]
    congr 3
    rw [padTo, List.append_assoc, List.drop_replicate]
    congr 1
    rw [show m - (natText (toU64 t)).length = (m - (natText (toU64 t) ++ [0]).length) + 1 by simp; omega,
      List.replicate_succ]
    rfl

theorem field_head (n : Nat) (t : Int) (rest : Bytes) (hn : 20 ≤ n) : ∃ b, rd (field n t ++ rest) 0 = .ok b ∧ (b ≠ 0 ↔ t ≠ 0) := by
  unfold field
  by_cases ht : t = 0
  · rw [if_pos ht]
    exact ⟨0, by simp [rd, List.getElem?_append, show 0 < n by omega], by simp [ht]⟩
  · rw [if_neg ht]
    cases hx : natText (toU64 t) with
    | nil => have := u64_length t; rw [hx] at this; simp at this
    | cons b l =>
      exact ⟨b, by simp [rd, padTo], by simp [ht, natText_ne_zero (toU64 t) b (by simp [hx])]⟩

theorem takeWhile_append_stop (p : UInt8 → Bool) (l r : Bytes) (x : UInt8) (hl : ∀ c ∈ l, p c = true) (hx : p x = false) :
    (l ++ x :: r).takeWhile p = l := by
  induction l with
  | nil => simp [hx]
  | cons a t ih => simp [hl a (by simp), ih (fun c hc => hl c (by simp [hc]))]

theorem field_cString (n : Nat) (t : Int) (rest : Bytes) (hn : 21 ≤ n) (ht : t ≠ 0) :
    cString (field n t ++ rest) = natText (toU64 t) := by
  unfold field cString
  rw [if_neg ht]
  have := u64_length t
  rw [padTo, show n - (natText (toU64 t)).length = (n - (natText (toU64 t)).length - 1) + 1 by omega, List.replicate_succ,
    List.append_assoc, List.cons_append]
  exact takeWhile_append_stop _ _ _ _ (fun c hc => by simpa using natText_ne_zero _ c hc) (by simp)

theorem cString_lit (k : String) (hk : ∀ c ∈ str k, c ≠ 0) : cString (str k ++ [0]) = str k :=
  takeWhile_append_stop _ _ _ _ (fun c hc => by simpa using hk c hc) (by simp)

/-- A claim as the registered ones are built: skipped, or with the given text, readable and ASCII. -/
def ClaimIs (ascii : Bool) (c : Claim) (texts : List Bytes) : Prop :=
  claimOk c ∧ memberTexts [c] = texts ∧ (ascii = true → ∀ m, member c = some m → m.ascii)

theorem memberTexts_cons (c : Claim) (l : List Claim) : memberTexts (c :: l) = memberTexts [c] ++ memberTexts l := by
  unfold memberTexts
  cases hm : member c <;> simp [hm]

theorem escape_plain (k : Bytes) (hk : ∀ c ∈ k, 97 ≤ c.toNat ∧ c.toNat ≤ 122) : escape k = k := by
  induction k with
  | nil => rfl
  | cons c t ih =>
    have hc := hk c (by simp)
    rw [escape, List.flatMap_cons, ← escape, ih (fun c hc => hk c (by simp [hc]))]
    have : escapeByte c = [c] := by
      unfold escapeByte
      have hne : ∀ x : UInt8, x.toNat < 97 ∨ 122 < x.toNat → c ≠ x := by rintro x hx rfl; omega
      rw [if_neg (hne _ (by decide)), if_neg (hne _ (by decide)), if_neg (hne _ (by decide)), if_neg (hne _ (by decide)),
        if_neg (hne _ (by decide)), if_neg (hne _ (by decide)), if_neg (hne _ (by decide)), if_neg (hne _ (by decide)), if_neg]
      rintro (h | h)
      · rw [UInt8.lt_iff_toNat_lt] at h
        have : (32 : UInt8).toNat = 32 := by decide
        omega
      · exact hne 127 (by decide) h
    rw [this]; rfl

theorem timeClaim_is (ascii : Bool) (key : String) (a rest : Bytes) (off n : Nat) (t : Int) (ha : a.length = off) (hn : 21 ≤ n)
    (hk : ∀ c ∈ str key, 97 ≤ c.toNat ∧ c.toNat ≤ 122) (hl : (str key).length = 3) :
    ∃ c, timeClaim key (a ++ field n t ++ rest) off = .ok c ∧
      ClaimIs ascii c (timeMember timeText key t) := by
  obtain ⟨b, hb, hb0⟩ := field_head n t rest (by omega)
  have hr : rd (a ++ field n t ++ rest) off = .ok b := by
    subst ha
    simp only [rd] at hb ⊢
    rw [List.append_assoc, List.getElem?_append_right (Nat.le_refl _), Nat.sub_self]
    exact hb
  have hd : (a ++ field n t ++ rest).drop off = field n t ++ rest := by
    subst ha; rw [List.append_assoc, List.drop_left' rfl]
  refine ⟨_, by simp only [timeClaim, hr, bind, Except.bind, hd]; rfl, ?_⟩
  by_cases ht : t = 0
  · have : ¬ b ≠ 0 := by rw [hb0]; simpa using ht
    simp only [this, if_false, ht, if_true, timeMember]
    exact ⟨Or.inl rfl, by simp [memberTexts, member], by simp [member]⟩
  · have : b ≠ 0 := by rw [hb0]; exact ht
    simp only [this, if_true, ht, if_false, ne_eq, not_false_eq_true, timeMember]
    have hcs := field_cString n t rest hn ht
    have hmem : 0 ∈ field n t ++ rest := by
      unfold field
      rw [if_neg ht, padTo]
      have := u64_length t
      simp; omega
    have htk : arg (str key ++ [0]) 3 = str key := by
      rw [arg, if_neg (by decide), List.take_left' hl]
    refine ⟨Or.inr ⟨_, by simp only [member, lit]; rfl, ?_⟩, ?_, ?_⟩
    · simp [Member.ok, argOk, hl, hmem]
    · simp only [memberTexts, List.filterMap_cons, List.filterMap_nil, member, lit, List.map_cons, List.map_nil, Member.text, htk,
        escape_plain _ hk]
      simp [arg, hcs, timeText]; intro h; cases h
    · intro _ m hm
      simp only [member, lit, Option.some.injEq] at hm
      subst hm
      simp only [Member.ascii, htk]
      refine ⟨fun c hc => ?_, fun h => by simp at h; cases h⟩
      have := hk c hc
      rw [UInt8.lt_iff_toNat_lt]
      have : (128 : UInt8).toNat = 128 := by decide
      omega

theorem strClaim_is (ascii : Bool) (key : String) (v : Ptr) (n : Nat) (hv : strOk ascii v n)
    (hk : ∀ c ∈ str key, 97 ≤ c.toNat ∧ c.toNat ≤ 122) (hl : (str key).length = 3) :
    ClaimIs ascii (strClaim key v n) (strMember key v n) := by
  cases v with
  | none => exact ⟨Or.inl rfl, by simp [memberTexts, member, strClaim, strMember], by simp [member, strClaim]⟩
  | some b =>
    obtain ⟨h1, h2⟩ := hv b rfl
    have htk : arg (str key ++ [0]) 3 = str key := by
      rw [arg, if_neg (by decide), List.take_left' hl]
    refine ⟨Or.inr ⟨_, by simp only [member, strClaim, lit, Option.isSome_some, if_true]; rfl, ?_⟩, ?_, ?_⟩
    · simp [Member.ok, argOk, hl]
      simpa [argOk] using h1
    · simp only [memberTexts, List.filterMap_cons, List.filterMap_nil, member, strClaim, lit, Option.isSome_some, if_true,
        List.map_cons, List.map_nil, Member.text, htk, escape_plain _ hk]
      simp [strMember, str]
    · intro ha m hm
      simp only [member, strClaim, lit, Option.isSome_some, if_true, Option.some.injEq] at hm
      subst hm
      simp only [Member.ascii, htk]
      refine ⟨fun c hc => ?_, fun _ => h2 ha⟩
      have := hk c hc
      rw [UInt8.lt_iff_toNat_lt]
      have : (128 : UInt8).toNat = 128 := by decide
      omega

theorem registeredClaims_eq (ascii : Bool) (p : EncParams) (h1 : strOk ascii p.iss p.issLength) (h2 : strOk ascii p.sub p.subLength)
    (h3 : strOk ascii p.aud p.audLength) (h4 : strOk ascii p.jti p.jtiLength) :
    ∃ l, registeredClaims p = .ok l ∧ l.length = 7 ∧ claimsOk ascii (some l) 7 ∧ memberTexts l = registeredWith timeText p := by
  have hb : List.replicate 64 (0 : UInt8) = [] ++ List.replicate 21 0 ++ (List.replicate 21 0 ++ List.replicate 22 0) := by decide
  have e1 : putTime (List.replicate 64 0) 0 p.iat = .ok ([] ++ field 21 p.iat ++ (List.replicate 21 0 ++ List.replicate 22 0)) := by
    rw [hb]; exact putTime_eq [] _ 0 21 p.iat rfl (by omega)
  have e2 : putTime ([] ++ field 21 p.iat ++ (List.replicate 21 0 ++ List.replicate 22 0)) 21 p.nbf =
      .ok (field 21 p.iat ++ field 21 p.nbf ++ List.replicate 22 0) := by
    have := putTime_eq (field 21 p.iat) (List.replicate 22 0) 21 21 p.nbf (field_length _ _ (by omega)) (by omega)
    simpa using this
  have e3 : putTime (field 21 p.iat ++ field 21 p.nbf ++ List.replicate 22 0) 42 p.exp =
      .ok (field 21 p.iat ++ field 21 p.nbf ++ field 22 p.exp) := by
    have := putTime_eq (field 21 p.iat ++ field 21 p.nbf) [] 42 22 p.exp (by simp [field_length]) (by omega)
    simpa using this
  obtain ⟨c1, f1, g1⟩ := timeClaim_is ascii "iat" [] (field 21 p.nbf ++ field 22 p.exp) 0 21 p.iat rfl (by omega) (by decide) (by decide)
  obtain ⟨c2, f2, g2⟩ := timeClaim_is ascii "nbf" (field 21 p.iat) (field 22 p.exp) 21 21 p.nbf (by simp [field_length]) (by omega) (by decide) (by decide)
  obtain ⟨c3, f3, g3⟩ := timeClaim_is ascii "exp" (field 21 p.iat ++ field 21 p.nbf) [] 42 22 p.exp (by simp [field_length]) (by omega) (by decide) (by decide)
  have g4 := strClaim_is ascii "sub" p.sub p.subLength h2 (by decide) (by decide)
  have g5 := strClaim_is ascii "iss" p.iss p.issLength h1 (by decide) (by decide)
  have g6 := strClaim_is ascii "aud" p.aud p.audLength h3 (by decide) (by decide)
  have g7 := strClaim_is ascii "jti" p.jti p.jtiLength h4 (by decide) (by decide)
  simp only [List.nil_append, List.append_assoc, List.append_nil] at f1 f2 f3 e1 e2 e3
  refine ⟨[c1, c2, c3, strClaim "sub" p.sub p.subLength, strClaim "iss" p.iss p.issLength, strClaim "aud" p.aud p.audLength,
    strClaim "jti" p.jti p.jtiLength], ?_, rfl, ?_, ?_⟩
  · simp only [registeredClaims, e1, e2, e3, f1, f2, f3, bind, Except.bind]
  · intro l hl
    cases hl
    refine ⟨by simp, ?_, ?_⟩
    · simp only [List.take, List.mem_cons, List.not_mem_nil, or_false, forall_eq_or_imp, forall_eq]
      exact ⟨g1.1, g2.1, g3.1, g4.1, g5.1, g6.1, g7.1⟩
    · intro ha
      simp only [List.take, List.mem_cons, List.not_mem_nil, or_false, forall_eq_or_imp, forall_eq]
      exact ⟨g1.2.2 ha, g2.2.2 ha, g3.2.2 ha, g4.2.2 ha, g5.2.2 ha, g6.2.2 ha, g7.2.2 ha⟩
  · rw [memberTexts_cons, memberTexts_cons _ [_, _, _, _, _], memberTexts_cons _ [_, _, _, _], memberTexts_cons _ [_, _, _],
      memberTexts_cons _ [_, _], memberTexts_cons _ [_], g1.2.1, g2.2.1, g3.2.1, g4.2.1, g5.2.1, g6.2.1, g7.2.1]
    simp only [registeredWith, List.append_assoc]

/-! ## Payload -/

theorem wp_payloadText (env : Env) (p : EncParams) (hok : TextsOk env p) :
    wp (payloadText env p) s h (fun t h' => Keeps h h' ∧
      t.length ≤ (payloadForm p (registeredWith timeText p) (extra p.payloadClaims p.payloadClaimsCount)).length ∧
      (s.noGrowFail ∨ (payloadForm p (registeredWith timeText p) (extra p.payloadClaims p.payloadClaimsCount)).length ≤ 256 →
        (∃ r e, (r = registeredWith timeText p ∨ r = []) ∧
          (e = extra p.payloadClaims p.payloadClaimsCount ∨ e = []) ∧ t = payloadForm p r e) ∧
        ((∀ k, s.failAlloc k = false) →
          t = payloadForm p (registeredWith timeText p) (extra p.payloadClaims p.payloadClaimsCount))))
      (fun _ => False) := by
  obtain ⟨l, e1, e2, e3, e4⟩ := registeredClaims_eq env.charSigned p hok.iss hok.sub hok.aud hok.jti
  have e4' : extra (some l) 7 = registeredWith timeText p := by
    rw [← e4]; simp [extra, ← e2]
  simp only [payloadText, wp_bind, wp_lift, e1, rwp_ok]
  refine wp_push' _ _ _ _ fun t1 u1 => ?_
  refine wp_mono (wp_writeClaimsIgnore env _ (some l) 7 (by decide) e3) ?_ (fun _ h => h)
  rintro b h1 ⟨hk1, t2, rfl, l2, n2⟩
  rw [e4'] at l2 n2
  have m1 := u1.1
  have le : (str "{").length = 1 := rfl
  have le' : (str "}").length = 1 := rfl
  by_cases hc : 0 < p.payloadClaimsCount
  · simp only [hc, if_true, wp_bind]
    have hsep : ∀ (Q : Bytes → Heap → Prop) (b : Bytes), (∀ t h', Keeps h1 h' →
          Upto s 256 b.length t (if sep p then str "," else []) → Q (b ++ t) h') →
        wp (if p.iat ≠ 0 ∨ p.exp ≠ 0 ∨ p.nbf ≠ 0 ∨ p.issLength ≠ 0 ∨ p.subLength ≠ 0 ∨ p.jtiLength ≠ 0 ∨ p.audLength ≠ 0
          then push 256 b (str ",") else pure b) s h1 Q (fun _ => False) := by
      intro Q b hQ
      show wp (if sep p then push 256 b (str ",") else pure b) s h1 Q (fun _ => False)
      by_cases hs : sep p
      · simp only [hs, if_true] at hQ ⊢
        exact wp_push' _ _ _ _ fun t u => hQ _ _ (Keeps.tick _) u
      · simp only [hs, if_false] at hQ ⊢
        simpa using hQ [] h1 (Keeps.refl _) (Upto.refl _)
    apply hsep
    intro t3 h2 hk2 u3
    refine wp_mono (wp_writeClaimsIgnore env _ _ _ (by omega) hok.payload) ?_ (fun _ h => h)
    rintro b h3 ⟨hk3, t4, rfl, l4, n4⟩
    refine wp_push' _ _ _ _ fun t5 u5 => ?_
    have m3 := u3.1
    have m5 := u5.1
    refine ⟨(Keeps.tick _).trans (hk1.trans (hk2.trans (hk3.trans (Keeps.tick _)))), ?_, fun g => ?_⟩
    · simp only [payloadForm, hc, if_true, List.length_append, List.length_nil] at *
      omega
    · have g' : s.noGrowFail ∨ (str "{").length + (commaSep (registeredWith timeText p)).length +
          (if sep p then str "," else []).length + (commaSep (extra p.payloadClaims p.payloadClaimsCount)).length +
          (str "}").length ≤ 256 := g.imp id (fun g => by
        simp only [payloadForm, hc, List.length_append, if_true] at g
        simp only [List.length_append] at *
        omega)
      simp only [List.length_append, List.length_nil] at n2 n4 u1 u3 u5
      obtain ⟨n2, g2⟩ := n2 (g'.imp id (by omega))
      obtain ⟨n4, g4⟩ := n4 (g'.imp id (by omega))
      have v1 := u1.2 (g'.imp id (by omega))
      have v3 := u3.2 (g'.imp id (by omega))
      have v5 := u5.2 (g'.imp id (by omega))
      refine ⟨⟨if t2 = commaSep (registeredWith timeText p) then registeredWith timeText p else [],
        if t4 = commaSep (extra p.payloadClaims p.payloadClaimsCount) then extra p.payloadClaims p.payloadClaimsCount else [],
        by split <;> simp, by split <;> simp, ?_⟩, fun ha => ?_⟩
      · have a2 : commaSep (if t2 = commaSep (registeredWith timeText p) then registeredWith timeText p else []) = t2 := by
          rcases n2 with h | h
          · simp [h]
          · split
            · exact Eq.symm ‹_›
            · rw [h]; rfl
        have a4 : commaSep (if t4 = commaSep (extra p.payloadClaims p.payloadClaimsCount) then
            extra p.payloadClaims p.payloadClaimsCount else []) = t4 := by
          rcases n4 with h | h
          · simp [h]
          · split
            · exact Eq.symm ‹_›
            · rw [h]; rfl
        rw [payloadForm, a2, a4, v1, v3, v5]
        simp [hc]
      · rw [v1, v3, v5, g2 ha, g4 ha]
        simp [payloadForm, hc]
  · simp only [hc, if_false, wp_pure]
    refine wp_push' _ _ _ _ fun t5 u5 => ?_
    have m5 := u5.1
    refine ⟨(Keeps.tick _).trans (hk1.trans (Keeps.tick _)), ?_, fun g => ?_⟩
    · simp only [payloadForm, hc, if_false, List.length_append, List.length_nil] at *
      omega
    · have g' : s.noGrowFail ∨ (str "{").length + (commaSep (registeredWith timeText p)).length + (str "}").length ≤ 256 :=
        g.imp id (fun g => by
          simp only [payloadForm, hc, List.length_append, if_false, List.length_nil] at g
          omega)
      simp only [List.length_append, List.length_nil] at n2 u1 u5
      obtain ⟨n2, g2⟩ := n2 (g'.imp id (by omega))
      have v1 := u1.2 (g'.imp id (by omega))
      have v5 := u5.2 (g'.imp id (by omega))
      refine ⟨?_, fun ha => ?_⟩
      · rcases n2 with h | h
        · exact ⟨registeredWith timeText p, [], Or.inl rfl, Or.inr rfl, by simp [payloadForm, hc, v1, v5, h]⟩
        · exact ⟨[], [], Or.inr rfl, Or.inr rfl, by simp [payloadForm, hc, v1, v5, h, commaSep]⟩
      · rw [v1, v5, g2 ha]
        simp [payloadForm, hc]

theorem keeps_payloadText (env : Env) (p : EncParams) : KeepsM (payloadText env p) :=
  KeepsM.bind (KeepsM.lift _) fun _ => KeepsM.bind (KeepsM.push _ _) fun _ =>
    KeepsM.bind (keeps_writeClaimsIgnore _ _ _ _) fun _ => KeepsM.bind (KeepsM.ite (KeepsM.bind
      (KeepsM.ite (KeepsM.push _ _) (KeepsM.pure _)) fun _ => keeps_writeClaimsIgnore _ _ _ _) (KeepsM.pure _)) fun _ =>
      KeepsM.push _ _

/-! ## Header and payload segments -/

theorem alg?_range (alg : Int) : (∃ j : Fin 14, alg = (j.val : Int)) ∨ (alg? alg = none ∧ (alg < 0 ∨ 13 < alg)) := by
  by_cases h1 : alg < 0
  · exact Or.inr ⟨by simp [alg?, h1], Or.inl h1⟩
  · by_cases h2 : 13 < alg
    · refine Or.inr ⟨?_, Or.inr h2⟩
      simp only [alg?, h1, if_false]
      rw [List.getElem?_eq_none]
      simp only [algs, List.length_cons, List.length_nil]
      omega
    · exact Or.inl ⟨⟨alg.toNat, by omega⟩, by simp; omega⟩

theorem headerPrefix_eq (alg : Int) : (alg? alg = none ∧ headerPrefix alg = none) ∨
    ∃ name sch l n, alg? alg = some (name, sch) ∧ headerPrefix alg = some (l, n) ∧
      rdN l n = .ok (str "{" ++ commaSep (headerBase name)) := by
  rcases alg?_range alg with ⟨j, rfl⟩ | ⟨h1, h2⟩
  · right
    have key : ∀ j : Fin 14, (match alg? (j.val : Int), headerPrefix (j.val : Int) with
      | some (name, _), some (l, n) => decide (rdN l n = .ok (str "{" ++ commaSep (headerBase name)))
      | _, _ => false) = true := by decide +kernel
    have := key j
    cases h1 : alg? (j.val : Int) with
    | none => rw [h1] at this; cases this
    | some a =>
      obtain ⟨name, sch⟩ := a
      cases h2 : headerPrefix (j.val : Int) with
      | none => rw [h1, h2] at this; cases this
      | some b => obtain ⟨l, n⟩ := b; rw [h1, h2] at this; exact ⟨name, sch, l, n, rfl, rfl, by simpa using this⟩
  · left
    refine ⟨h1, ?_⟩
    unfold headerPrefix
    simp only [L8W8JWT_ALG_HS256, L8W8JWT_ALG_HS384, L8W8JWT_ALG_HS512, L8W8JWT_ALG_RS256, L8W8JWT_ALG_RS384, L8W8JWT_ALG_RS512,
      L8W8JWT_ALG_PS256, L8W8JWT_ALG_PS384, L8W8JWT_ALG_PS512, L8W8JWT_ALG_ES256, L8W8JWT_ALG_ES384, L8W8JWT_ALG_ES512,
      L8W8JWT_ALG_ES256K, L8W8JWT_ALG_ED25519]
    repeat rw [if_neg (by omega)]

theorem alloc_free_keeps {h h' : Heap} (hk : Keeps { tick := h.tick + 1, live := h.tick :: h.live } h') :
    h.tick ∈ h'.live ∧ Keeps h { h' with live := h'.live.erase h.tick } := by
  have h1 := hk.1
  have h2 := hk.2
  simp only at h1 h2
  refine ⟨by simp [h1], by simp [h1], ?_⟩
  show h.tick ≤ h'.tick
  omega

/-- `write_header_and_payload`, given what is known about the two texts. -/
theorem wp_writeHeaderAndPayload (env : Env) (sb : Bytes) (p : EncParams) (HQ PQ : Bytes → Prop) (E : UB → Prop)
    (hh : ∀ name sch h, alg? p.alg = some (name, sch) → ∀ pre, Upto s 256 0 pre (str "{" ++ commaSep (headerBase name)) →
      wp (headerText env p pre) s h (fun b h' => Keeps h h' ∧ HQ b) E)
    (hp : ∀ h, wp (payloadText env p) s h (fun b h' => Keeps h h' ∧ PQ b) E)
    (hE : (∀ b, HQ b ∨ PQ b → b64Fits b.length) ∨ ∀ e, E e) :
    wp (writeHeaderAndPayload env sb p) s h (fun r h' => Keeps h h' ∧
      (r.1 = L8W8JWT_SUCCESS → (alg? p.alg).isSome ∧ ∃ hdr pay, HQ hdr ∧ PQ pay ∧ b64Fits hdr.length ∧ b64Fits pay.length ∧ hdr ≠ [] ∧ pay ≠ [] ∧
        ∃ t, r.2 = sb ++ t ∧ Upto s 1024 sb.length t (b64 true hdr ++ str "." ++ b64 true pay)) ∧
      (r.1 ≠ L8W8JWT_SUCCESS → (alg? p.alg = none ∧ r.1 = L8W8JWT_INVALID_ARG) ∨
        (∃ b, (HQ b ∨ PQ b) ∧ (b = [] ∨ 2 ^ 62 ≤ b.length)) ∨ ((∃ k, s.failAlloc k = true) ∧ r.1 = L8W8JWT_OUT_OF_MEM))) E := by
  simp only [writeHeaderAndPayload, wp_bind, wp_alloc]
  refine ⟨fun hf => ⟨Keeps.tick h, fun hr => by simp at hr, fun _ => Or.inr (Or.inr ⟨⟨_, hf⟩, rfl⟩)⟩, fun _ => ?_⟩
  have hfr : ∀ {α : Type} (h' : Heap) (x : α) (Q : α → Heap → Prop), Keeps { tick := h.tick + 1, live := h.tick :: h.live } h' →
      (∀ h'', Keeps h h'' → Q x h'') → wp (do free (some ⟨h.tick, []⟩); pure x : M α) s h' Q E := by
    intro α h' x Q hk hQ
    obtain ⟨m, k⟩ := alloc_free_keeps hk
    rw [wp_bind]
    exact wp_free_some _ _ _ m (hQ _ k)
  rcases headerPrefix_eq p.alg with ⟨h1, h2⟩ | ⟨name, sch, l, n, h1, h2, h3⟩
  · rw [h2]
    exact hfr _ _ _ (Keeps.refl _) fun h'' k => ⟨k, fun hr => by simp at hr, fun _ => Or.inl ⟨h1, rfl⟩⟩
  · rw [h2]
    simp only [wp_bind, wp_lift, h3, rwp_ok]
    refine wp_push' _ _ _ _ fun pre upre => ?_
    refine wp_mono (hh name sch _ h1 pre upre) ?_ (fun _ h => h)
    rintro hdr h4 ⟨k4, hq⟩
    have k4' : Keeps { tick := h.tick + 1, live := h.tick :: h.live } h4 := (Keeps.tick _).trans k4
    apply wp_b64enc
    · rcases hE with hE | hE
      · exact Or.inl (hE _ (Or.inl hq))
      · exact Or.inr hE
    · intro r h5 hr k5 hg
      simp only [hr, ne_eq, not_false_eq_true, if_true]
      exact hfr _ _ _ (k4'.trans k5) fun h'' k => ⟨k, fun hc => absurd hc hr,
        fun _ => Or.inr (hg.imp (fun hx => ⟨hdr, Or.inl hq, hx⟩) id)⟩
    intro hne hft _
    simp only [ne_eq, not_true_eq_false, if_false, Option.getD_some, Ptr.bytes, Option.map_some, deref, wp_bind, wp_lift, rwp_ok,
      rdN_encMem]
    refine wp_push' _ _ _ _ fun t1 u1 => ?_
    apply wp_free_some
    · simp
    simp only [List.erase_cons_head]
    have k6 : Keeps { tick := h.tick + 1, live := h.tick :: h.live } { tick := h4.tick + 1 + 1, live := h4.live } :=
      k4'.trans ⟨rfl, by show h4.tick ≤ h4.tick + 1 + 1; omega⟩
    refine wp_mono (hp _) ?_ (fun _ h => h)
    rintro pay h7 ⟨k7, pq⟩
    have k7' := k6.trans k7
    apply wp_b64enc
    · rcases hE with hE | hE
      · exact Or.inl (hE _ (Or.inr pq))
      · exact Or.inr hE
    · intro r h5 hr k5 hg
      simp only [hr, not_false_eq_true, if_true]
      exact hfr _ _ _ (k7'.trans k5) fun h'' k => ⟨k, fun hc => absurd hc hr,
        fun _ => Or.inr (hg.imp (fun hx => ⟨pay, Or.inr pq, hx⟩) id)⟩
    intro hne2 hft2 _
    simp only [not_true_eq_false, if_false, Option.getD_some, Option.map_some, wp_bind, wp_lift, rwp_ok,
      rdN_encMem]
    refine wp_push' _ _ _ _ fun t2 u2 => ?_
    refine wp_push' _ _ _ _ fun t3 u3 => ?_
    apply wp_free_some
    · simp
    simp only [List.erase_cons_head]
    have k8 : Keeps { tick := h.tick + 1, live := h.tick :: h.live } { tick := h7.tick + 1 + 1 + 1, live := h7.live } :=
      k7'.trans ⟨rfl, by show h7.tick ≤ h7.tick + 1 + 1 + 1; omega⟩
    obtain ⟨m, k⟩ := alloc_free_keeps k8
    apply wp_free_some _ _ _ m
    refine ⟨k, fun _ => ⟨by simp [h1], hdr, pay, hq, pq, hft, hft2, hne, hne2, t1 ++ t2 ++ t3, by simp, (u1.append u2 (by simp only [List.length_append]; omega)).append u3 (by simp only [List.length_append]; omega)⟩, fun hc => absurd rfl hc⟩

/-! ## Signature -/

/-- Key loading and signing. -/
def sigOf (env : Env) (p : EncParams) (msg : Bytes) : Res SigRes := do
  let k ← loadKey p.secretKey p.secretKeyLength
  signSwitch env p k.1 k.2 msg

/-- What is known about the outcome of signing: a signature with `SQ`, or an error code with `SE`. -/
def SigPost (SQ : Bytes → Prop) (SE : Nat → Prop) (r : SigRes) : Prop :=
  match r with
  | .ok sig => SQ sig
  | .error rc => rc ≠ L8W8JWT_SUCCESS ∧ SE rc

/-- What `write_signature` establishes. -/
def SignedPost (s : Sched) (sb : Bytes) (SQ : Bytes → Prop) (SE : Nat → Prop) (r : Nat × Bytes) : Prop :=
  (r.1 = L8W8JWT_SUCCESS → ∃ sig, SQ sig ∧ sig ≠ [] ∧ ∃ t, r.2 = sb ++ t ∧ Upto s 1024 sb.length t (str "." ++ b64 true sig)) ∧
  (r.1 ≠ L8W8JWT_SUCCESS → (SE r.1 ∨ ∃ sig, SQ sig ∧ (sig = [] ∨ 2 ^ 62 ≤ sig.length)) ∨
    ((∃ k, s.failAlloc k = true) ∧ (r.1 = L8W8JWT_OUT_OF_MEM ∨ r.1 = L8W8JWT_BASE64_FAILURE)))

theorem wp_writeSignatureBody (env : Env) (sb : Bytes) (p : EncParams) (SQ : Bytes → Prop) (SE : Nat → Prop) (E : UB → Prop)
    (hs : rwp (sigOf env p sb) (SigPost SQ SE) E) (hE : (∀ b, SQ b → b64Fits b.length) ∨ ∀ e, E e) :
    wp (writeSignatureBody env sb p) s h (fun r h' => Keeps h h' ∧ SignedPost s sb SQ SE r) E := by
  simp only [writeSignatureBody, wp_bind, wp_lift]
  rw [sigOf, rwp_bind] at hs
  refine rwp_mono hs ?_ (fun _ h => h)
  rintro ⟨k, kl⟩ hs
  refine rwp_mono hs ?_ (fun _ h => h)
  intro r hr
  cases r with
  | error rc => exact ⟨Keeps.refl h, fun hc => absurd hc hr.1, fun _ => Or.inl (Or.inl hr.2)⟩
  | ok sig =>
    simp only [SigPost] at hr
    by_cases h0 : sig.length = 0
    · simp only [h0, if_true, wp_pure]
      exact ⟨Keeps.refl h, fun hc => by simp at hc, fun _ => Or.inl (Or.inr ⟨sig, hr, Or.inl (List.length_eq_zero_iff.mp h0)⟩)⟩
    · simp only [h0, if_false, wp_bind]
      apply wp_b64enc
      · rcases hE with hE | hE
        · exact Or.inl (hE _ hr)
        · exact Or.inr hE
      · intro q h5 hq k5 hg
        simp only [hq, ne_eq, not_false_eq_true, if_true, wp_pure]
        exact ⟨k5, fun hc => by simp at hc,
          fun _ => hg.imp (fun hx => Or.inr ⟨sig, hr, hx⟩) (fun hx => ⟨hx.1, Or.inr rfl⟩)⟩
      intro hne _ _
      simp only [ne_eq, not_true_eq_false, if_false, Option.getD_some, Ptr.bytes, Option.map_some, deref, wp_bind, wp_lift,
        rwp_ok, rdN_encMem]
      refine wp_push' _ _ _ _ fun t2 u2 => ?_
      refine wp_push' _ _ _ _ fun t3 u3 => ?_
      apply wp_free_some
      · simp
      simp only [List.erase_cons_head]
      exact ⟨⟨rfl, by show h.tick ≤ h.tick + 1 + 1 + 1; omega⟩,
        fun _ => ⟨sig, hr, hne, t2 ++ t3, by simp, u2.append u3 (by simp only [List.length_append]; omega)⟩, fun hc => absurd rfl hc⟩

theorem zeroize_full (i n : Nat) : zeroize (some ⟨i, List.replicate n 0⟩) n = .ok () := by
  simp [zeroize]

theorem zeroize_null (n : Nat) (hn : n ≠ 0) : zeroize none n = .error .nullDeref := by
  simp [zeroize, hn]

theorem wp_writeSignature (env : Env) (sb : Bytes) (p : EncParams) (SQ : Bytes → Prop) (SE : Nat → Prop) (E : UB → Prop)
    (hs : rwp (sigOf env p sb) (SigPost SQ SE) E)
    (hE : ((∀ b, SQ b → b64Fits b.length) ∧ (env.smallStack = false ∨ ∀ k, s.failAlloc k = false)) ∨ ∀ e, E e) :
    wp (writeSignature env sb p) s h (fun r h' => Keeps h h' ∧ SignedPost s sb SQ SE r) E := by
  have hb : ∀ h, wp (writeSignatureBody env sb p) s h (fun r h' => Keeps h h' ∧ SignedPost s sb SQ SE r) E := fun h =>
    wp_writeSignatureBody env sb p SQ SE E hs (hE.imp And.left id)
  unfold writeSignature
  cases hst : env.smallStack with
  | false => simpa using hb h
  | true =>
    have oom : ∀ k, s.failAlloc k = true → SignedPost s sb SQ SE (L8W8JWT_OUT_OF_MEM, sb) := fun k hk =>
      ⟨fun hc => by simp at hc, fun _ => Or.inr ⟨⟨k, hk⟩, Or.inl rfl⟩⟩
    simp only [if_true, wp_bind, wp_alloc]
    refine ⟨fun hf => ⟨fun hf2 => ?_, fun hf2 => ?_⟩, fun hf => ⟨fun hf2 => ?_, fun hf2 => ?_⟩⟩
    · simp only [Option.isNone_none, Bool.or_self, if_true, wp_pure, wp_lift, zeroize_null _ (show L8W8JWT_MAX_KEY_SIZE ≠ 0 by decide), rwp_error]
      rcases hE with ⟨_, hE | hE⟩ | hE
      · simp [hst] at hE
      · simp [hE] at hf
      · exact hE _
    · simp only [Option.isNone_none, Bool.true_or, if_true, wp_pure, wp_lift, zeroize_full, rwp_ok]
      apply wp_free_some
      · simp
      · simp only [List.erase_cons_head, wp_free_none]
        exact ⟨⟨rfl, by show h.tick ≤ h.tick + 1 + 1; omega⟩, oom _ hf⟩
    · simp only [Option.isNone_none, Bool.or_true, if_true, wp_pure, wp_lift, zeroize_null _ (show L8W8JWT_MAX_KEY_SIZE ≠ 0 by decide), rwp_error]
      rcases hE with ⟨_, hE | hE⟩ | hE
      · simp [hst] at hE
      · simp [hE] at hf2
      · exact hE _
    · simp only [Option.isNone_some, Bool.or_self, Bool.false_eq_true, if_false]
      have hb' := hb { tick := h.tick + 1 + 1, live := (h.tick + 1) :: h.tick :: h.live }
      generalize L8W8JWT_MAX_KEY_SIZE = mx
      refine wp_mono hb' ?_ (fun _ h => h)
      rintro r h' ⟨k1, k2⟩
      simp only [wp_lift, zeroize_full, rwp_ok]
      have l1 := k1.1
      have l2 := k1.2
      simp only at l1 l2
      apply wp_free_some
      · simp [l1]
      · apply wp_free_some
        · simp [l1]
        · refine ⟨⟨by simp [l1], ?_⟩, k2⟩
          show h.tick ≤ h'.tick
          omega

/-! ## The whole encoder -/

theorem alg?_ne {alg : Int} (h : (alg? alg).isSome) : alg ≠ -1 := by
  rintro rfl; exact absurd h (by decide)

/-- What is known when `l8w8jwt_encode` returns. -/
structure EncPost (s : Sched) (h : Heap) (p : EncParams) (HQ PQ : Bytes → Prop) (SQ : Bytes → Bytes → Prop)
    (SE : Bytes → Nat → Prop) (r : EncOut) (h' : Heap) : Prop where
  success : r.rc = L8W8JWT_SUCCESS → (alg? p.alg).isSome ∧ ∃ hdr pay sig tok id msg, HQ hdr ∧ PQ pay ∧ SQ msg sig ∧
    hdr ≠ [] ∧ pay ≠ [] ∧ sig ≠ [] ∧ r.out = some (some ⟨id, tok ++ [0]⟩) ∧ r.outLength = some tok.length ∧
    h'.live = id :: h.live ∧ h.tick ≤ id ∧ Upto s 1024 0 msg (b64 true hdr ++ str "." ++ b64 true pay) ∧
    Upto s 1024 0 tok (msg ++ str "." ++ b64 true sig)
  failure : r.rc ≠ L8W8JWT_SUCCESS → r.outLength = none ∧ (r.out = none ∨ r.out = some none) ∧ h'.live = h.live ∧
    ((alg? p.alg = none ∧ r.rc = L8W8JWT_INVALID_ARG) ∨ (∃ b, (HQ b ∨ PQ b) ∧ (b = [] ∨ 2 ^ 62 ≤ b.length)) ∨
      (∃ hdr pay msg, HQ hdr ∧ PQ pay ∧ Upto s 1024 0 msg (b64 true hdr ++ str "." ++ b64 true pay) ∧
        (SE msg r.rc ∨ ∃ sig, SQ msg sig ∧ (sig = [] ∨ 2 ^ 62 ≤ sig.length))) ∨
      ((∃ k, s.failAlloc k = true) ∧ (r.rc = L8W8JWT_OUT_OF_MEM ∨ r.rc = L8W8JWT_BASE64_FAILURE)))
  fits : (alg? p.alg).isSome → (∃ hdr pay, HQ hdr ∧ PQ pay ∧ b64Fits hdr.length ∧ b64Fits pay.length) ∨
    (∃ b, (HQ b ∨ PQ b) ∧ (b = [] ∨ 2 ^ 62 ≤ b.length)) ∨ ∃ k, s.failAlloc k = true
  tick : h.tick ≤ h'.tick ∧ ∀ b, r.out = some (some b) → b.id < h'.tick

/-- `l8w8jwt_encode` after parameter validation, given what is known about its parts. -/
theorem wp_encode (env : Env) (p : EncParams) (HQ PQ : Bytes → Prop) (SQ : Bytes → Bytes → Prop) (SE : Bytes → Nat → Prop)
    (E : UB → Prop) (hv : validateEncodingParams (some p) = L8W8JWT_SUCCESS)
    (hh : ∀ name sch h, alg? p.alg = some (name, sch) → ∀ pre, Upto s 256 0 pre (str "{" ++ commaSep (headerBase name)) →
      wp (headerText env p pre) s h (fun b h' => Keeps h h' ∧ HQ b) E)
    (hp : ∀ h, wp (payloadText env p) s h (fun b h' => Keeps h h' ∧ PQ b) E)
    (hs : ∀ msg, (alg? p.alg).isSome → rwp (sigOf env p msg) (SigPost (SQ msg) (SE msg)) E)
    (hE : ((∀ b, HQ b ∨ PQ b → b64Fits b.length) ∧ (∀ m b, SQ m b → b64Fits b.length) ∧
      (env.smallStack = false ∨ ∀ k, s.failAlloc k = false)) ∨ ∀ e, E e) :
    wp (encode env (some p)) s h (EncPost s h p HQ PQ SQ SE) E := by
  simp only [encode, hv, ne_eq, not_true_eq_false, if_false, wp_bind, wp_alloc]
  refine ⟨fun hf => ⟨fun hc => by simp at hc, fun _ => ⟨rfl, Or.inl rfl, rfl, Or.inr (Or.inr (Or.inr ⟨⟨_, hf⟩, Or.inl rfl⟩))⟩,
    fun _ => Or.inr (Or.inr ⟨_, hf⟩), Nat.le_succ _, fun b hb => by cases hb⟩, fun _ => ?_⟩
  have fin : ∀ (r : EncOut) (h1 h2 : Heap) (R : Heap → Prop), Keeps { tick := h.tick + 1, live := h.tick :: h.live } h1 → h2 = h1 →
      (∀ h', h'.live = h.live → R h') → wp (do free (some ⟨h.tick, []⟩); pure r : M EncOut) s h2 (fun _ h' => R h') E := by
    rintro r h1 _ R k rfl hR
    obtain ⟨m, k'⟩ := alloc_free_keeps k
    rw [wp_bind]
    exact wp_free_some _ _ _ m (hR _ k'.1)
  simp only [wp_bind, encodeBody]
  refine wp_mono (wp_writeHeaderAndPayload env [] p HQ PQ E hh hp (hE.imp And.left id)) ?_ (fun _ h => h)
  rintro ⟨rc, sb⟩ h1 ⟨k1, ok1, bad1⟩
  simp only at ok1 bad1
  by_cases hrc : rc = L8W8JWT_SUCCESS
  · obtain ⟨ha, hdr, pay, hq, pq, f1, f2, n1, n2, t, e, u⟩ := ok1 hrc
    simp only [List.nil_append, List.length_nil] at e u
    subst hrc e
    simp only [ne_eq, not_true_eq_false, if_false, alg?_ne ha, not_false_eq_true, if_true, wp_bind]
    refine wp_mono (wp_writeSignature env sb p (SQ sb) (SE sb) E (hs _ ha) (hE.imp (fun h => ⟨fun b => h.2.1 sb b, h.2.2⟩) id)) ?_ (fun _ h => h)
    rintro ⟨rc, sb2⟩ h2 ⟨k2, ok2, bad2⟩
    have k12 := k1.trans k2
    simp only at ok2 bad2
    by_cases hrc : rc = L8W8JWT_SUCCESS
    · obtain ⟨sig, sq, n3, t3, e3, u3⟩ := ok2 hrc
      subst hrc e3
      simp only [not_true_eq_false, if_false, writeToken, wp_bind, wp_alloc]
      have l1 := k12.1
      have l2 := k12.2
      simp only at l1 l2
      refine ⟨fun hf => ?_, fun _ => ?_⟩
      · apply wp_free_some
        · simp [l1]
        · exact ⟨fun hc => by simp at hc, fun _ => ⟨rfl, Or.inr rfl, by simp [l1], Or.inr (Or.inr (Or.inr ⟨⟨_, hf⟩, Or.inl rfl⟩))⟩,
            fun _ => Or.inr (Or.inr ⟨_, hf⟩), show h.tick ≤ h2.tick + 1 by omega, fun b hb => by cases hb⟩
      · apply wp_free_some
        · simp [l1]
        · refine ⟨fun _ => ⟨ha, hdr, pay, sig, sb ++ t3, h2.tick, sb, hq, pq, sq, n1, n2, n3, rfl, rfl, ?_, by omega, u, ?_⟩,
            fun hc => absurd rfl hc, fun _ => Or.inl ⟨hdr, pay, hq, pq, f1, f2⟩, show h.tick ≤ h2.tick + 1 by omega,
            fun b hb => by cases hb; exact Nat.lt_succ_self _⟩
          · simp only [l1]
            rw [List.erase_cons_tail (by simp; omega)]
            simp
          · have := (Upto.refl (s := s) (c := 1024) (o := 0) sb).append u3 (by omega)
            simpa using this
    · simp only [hrc, not_false_eq_true, if_true, wp_pure]
      obtain ⟨m, k'⟩ := alloc_free_keeps k12
      apply wp_free_some _ _ _ m
      refine ⟨fun hc => absurd hc hrc, fun _ => ⟨rfl, Or.inl rfl, k'.1, ?_⟩, fun _ => Or.inl ⟨hdr, pay, hq, pq, f1, f2⟩,
        k'.2, fun b hb => by cases hb⟩
      exact Or.inr (Or.inr ((bad2 hrc).imp (fun hx => ⟨hdr, pay, sb, hq, pq, u, hx⟩) id))
  · simp only [hrc, ne_eq, not_false_eq_true, if_true, wp_pure]
    obtain ⟨m, k'⟩ := alloc_free_keeps k1
    apply wp_free_some _ _ _ m
    refine ⟨fun hc => absurd hc hrc, fun _ => ⟨rfl, Or.inl rfl, k'.1, ?_⟩, fun ha => ?_, k'.2, fun b hb => by cases hb⟩
    case refine_2 =>
      rcases bad1 hrc with b | b | b
      · rw [b.1] at ha; cases ha
      · exact Or.inr (Or.inl b)
      · exact Or.inr (Or.inr b.1)
    rcases bad1 hrc with b | b | b
    · exact Or.inl b
    · exact Or.inr (Or.inl b)
    · exact Or.inr (Or.inr (Or.inr ⟨b.1, Or.inl b.2⟩))

/-! ## Keys -/

theorem hmacKey_eq (k : Bytes) : hmacKey k = k.take ((if k.getLast? = some 0 then k.length else k.length + 1) - 1) := by
  unfold hmacKey
  split
  · rw [List.dropLast_eq_take]
  · simp

theorem padTo_length (n : Nat) (b : Bytes) (h : b.length ≤ n) : (padTo n b).length = n := by
  simp [padTo]; omega

theorem padTo_take (n : Nat) (b : Bytes) : (padTo n b).take b.length = b := by
  simp [padTo]

theorem wrAt_zero (N : Nat) (b : Bytes) (h : b.length ≤ N) : wrAt (List.replicate N 0) 0 b = .ok (padTo N b) := by
  simp only [wrAt, List.length_replicate, Nat.zero_add, h, if_true]
  simp [padTo]

theorem loadKey_aux (N n : Nat) (mem : Bytes) (h1 : 1 ≤ n) (h2 : n ≤ N) (h3 : n ≤ mem.length) :
    (do let k ← rdN mem n
        let buf ← wrAt (List.replicate N 0) 0 k
        let last ← rd buf (n - 1)
        .ok (buf, if last ≠ 0 then n + 1 else n) : Res (Bytes × Nat)) =
      .ok (padTo N (mem.take n), if (mem.take n).getLast? = some 0 then n else n + 1) := by
  have hl : (mem.take n).length = n := by simp [h3]
  have hw : wrAt (List.replicate N 0) 0 (mem.take n) = .ok (padTo N (mem.take n)) := by
    exact wrAt_zero _ _ (by omega)
  have hlt : n - 1 < (mem.take n).length := by omega
  have hr : rd (padTo N (mem.take n)) (n - 1) = .ok (mem.take n)[n - 1] := by
    simp only [rd, padTo]
    rw [List.getElem?_append_left hlt, List.getElem?_eq_getElem hlt]
  have hg : (mem.take n).getLast? = some (mem.take n)[n - 1] := by
    rw [List.getLast?_eq_getElem?, hl, List.getElem?_eq_getElem hlt]
  rw [hg]
  have hrd : rdN mem n = .ok (mem.take n) := by simp [rdN, h3]
  generalize hk : mem.take n = k at *
  simp only [hrd, hw, hr, bind, Except.bind]
  by_cases h0 : k[n - 1] = 0 <;> simp [h0]

theorem loadKey_eq (n : Nat) (mem : Bytes) (h1 : 1 ≤ n) (h2 : n ≤ L8W8JWT_MAX_KEY_SIZE) (h3 : n ≤ mem.length) :
    loadKey (some mem) n = .ok (padTo L8W8JWT_MAX_KEY_SIZE (mem.take n),
      if (mem.take n).getLast? = some 0 then n else n + 1) := loadKey_aux _ n mem h1 h2 h3

theorem rdN_hmac (N : Nat) (k : Bytes) (h1 : 1 ≤ k.length) (h2 : k.length ≤ N) :
    rdN (padTo N k) ((if k.getLast? = some 0 then k.length else k.length + 1) - 1) = .ok (hmacKey k) := by
  rw [hmacKey_eq]
  have hle : (if k.getLast? = some 0 then k.length else k.length + 1) - 1 ≤ k.length := by split <;> omega
  generalize (if k.getLast? = some 0 then k.length else k.length + 1) - 1 = m at *
  rw [rdN, padTo_length _ _ h2, if_pos (by omega), padTo, List.take_append_of_le_length hle]

theorem rdN_pem (N : Nat) (k : Bytes) (h2 : k.length ≤ N) :
    rdN (padTo N k) (if k.getLast? = some 0 then k.length else k.length + 1) =
      if k.length < N ∨ k.getLast? = some 0 then .ok (pemKey k) else .error .oobRead := by
  rw [rdN, padTo_length _ _ h2]
  unfold pemKey
  by_cases hz : k.getLast? = some 0
  · simp [hz, h2, padTo_take]
  · simp only [hz, if_false, or_false]
    by_cases hl : k.length < N
    · rw [if_pos (by omega), if_pos hl, padTo, List.take_append, List.take_of_length_le (by omega)]
      rw [show k.length + 1 - k.length = 1 by omega, show N - k.length = (N - k.length - 1) + 1 by omega, List.replicate_succ]
      rfl
    · rw [if_neg (by omega), if_neg hl]

/-! ## Numbers -/

theorem be_length (n x : Nat) : (be n x).length = n := by
  induction n generalizing x with
  | zero => rfl
  | succ n ih => simp [be, ih]

theorem mpiBytes_eq (n x : Nat) : ((List.range n).map fun i => UInt8.ofNat (x / 256 ^ (n - 1 - i))) = be n x := by
  induction n generalizing x with
  | zero => rfl
  | succ n ih =>
    rw [List.range_succ, List.map_append, be, ← ih]
    congr 1
    · apply List.map_congr_left
      intro i hi
      have hi : i < n := by simpa using hi
      rw [show n + 1 - 1 - i = (n - 1 - i) + 1 by omega, Nat.pow_succ, Nat.mul_comm, ← Nat.div_div_eq_div_mul]
    · simp only [List.map_cons, List.map_nil]
      congr 1
      rw [show n + 1 - 1 - n = 0 by omega, Nat.pow_zero, Nat.div_one]
      apply UInt8.toNat_inj.mp
      simp [UInt8.toNat_ofNat']

theorem mpiWrite_eq (n x : Nat) : mpiWrite x n = if x < 256 ^ n then some (be n x) else none := by
  rw [mpiWrite, mpiBytes_eq]

/-! ## Signing -/

theorem hashOf_eq {c : Crypto} (hc : CryptoOk c) (md : Md) (msg : Bytes) : hashOf c md msg = c.md md msg := by
  unfold hashOf
  cases h : c.md md msg with
  | none => rfl
  | some t =>
    have := hc.md _ _ _ h
    simp only [Option.map_some, ← this]
    rw [padTo_take]

theorem signHmac_eq {c : Crypto} (hc : CryptoOk c) (alg : Int) (md : Md) (key : Bytes) (kl : Nat) (msg k : Bytes)
    (hl : 32 + 16 * alg.toNat = md.len) (hk : rdN key (kl - 1) = .ok k) :
    signHmac c alg md key kl msg = .ok (match c.hmac md k msg with
      | none => .error L8W8JWT_SIGNATURE_CREATION_FAILURE
      | some t => .ok t) := by
  simp only [signHmac, hk, bind, Except.bind]
  cases h : c.hmac md k msg with
  | none => rfl
  | some t =>
    have := hc.hmac _ _ _ _ h
    simp only [hl, ← this]
    rw [padTo_take]

/-- What the code emits as signature: as `Signs`, but PSS signatures are cut to `bitlen / 8` bytes. -/
def Emits (env : Env) (p : EncParams) (msg sig : Bytes) : Prop :=
  let c := env.crypto
  KeySuits env p ∧ sig.length ≤ 4096 ∧
  match alg? p.alg with
  | some (_, .pss md) => ∃ pk hash full, c.parseKey (pemKey (keyBytes p)) (password p) = some pk ∧ c.md md msg = some hash ∧
      c.pssSign pk md hash = some full ∧ sig = full.take (c.bitlen pk / 8) ∧ full.length = (c.bitlen pk + 7) / 8
  | some (_, .eddsa) => sig.length = 64 ∧ Signs env p msg sig
  | _ => Signs env p msg sig

theorem pwArg_eq (p : EncParams) : pwArg p.secretKeyPw p.secretKeyPwLength = .ok (password p) ∨
    ∃ mem, p.secretKeyPw = some mem ∧ mem.length < p.secretKeyPwLength := by
  cases h : p.secretKeyPw with
  | none => left; simp [pwArg, password, h]
  | some mem =>
    by_cases hl : p.secretKeyPwLength ≤ mem.length
    · left; simp [pwArg, password, h, rdN, hl, bind, Except.bind]
    · right; exact ⟨mem, rfl, by omega⟩

/-- When signing with a key does not fail. -/
theorem not_pemFails {c : Crypto} {sch : Scheme} {k : Bytes} {pw : Option Bytes} {msg : Bytes} {pk : c.PK} {md : Md} {hash : Bytes}
    (h1 : c.parseKey k pw = some pk) (h2 : sch.Kind c pk) (h3 : sch.Strong c pk) (hp : sch.prehash = some md)
    (h4 : c.md md msg = some hash) (h5 : sch.OnCurve c pk) (h6 : sch.Signable c pk hash) (rc : Nat) : ¬ PemFails c sch k pw msg rc := by
  intro h
  cases h with
  | parse g1 => rw [h1] at g1; cases g1
  | kind g1 g2 => rw [h1] at g1; cases g1; exact g2 h2
  | weak g1 _ g3 => rw [h1] at g1; cases g1; exact g3 h3
  | broken g1 _ g3 => rw [h1] at g1; cases g1; exact g3 h3
  | hash g1 _ _ gp g4 => rw [hp] at gp; cases gp; rw [h4] at g4; cases g4
  | curve g1 _ _ _ _ g5 => rw [h1] at g1; cases g1; exact g5 h5
  | sign g1 _ _ gp g4 _ g6 => rw [h1] at g1; cases g1; rw [hp] at gp; cases gp; rw [h4] at g4; cases g4; exact g6 h6

section families
variable {c : Crypto} (hc : CryptoOk c) {E : UB → Prop}
include hc

theorem signRsa_post (md : Md) (key : Bytes) (kl : Nat) (pw : Option Bytes) (msg k : Bytes) (hk : rdN key kl = .ok k) :
    rwp (signRsa c md key kl pw msg) (SigPost
      (fun sig => (∀ rc, ¬ PemFails c (.rsa md) k pw msg rc) ∧ ∃ pk hash, c.parseKey k pw = some pk ∧ c.canRsa pk = true ∧ 2048 ≤ c.bitlen pk ∧ c.md md msg = some hash ∧
        c.pkSign pk md hash = some sig ∧ sig.length ≤ 4096)
      (PemFails c (.rsa md) k pw msg)) E := by
  simp only [signRsa, rwp_bind, hk, rwp_ok, hashOf_eq hc]
  cases h1 : c.parseKey k pw with
  | none => exact ⟨by decide, .parse h1⟩
  | some pk =>
    simp only
    by_cases h2 : c.canRsa pk = true
    · rw [if_neg (by simp [h2])]
      by_cases h3 : c.bitlen pk < 2048
      · rw [if_pos h3]
        exact ⟨by decide, .weak h1 h2 (fun hx => absurd h3 (Nat.not_lt.mpr hx)) (fun _ _ _ _ hx => by cases hx)⟩
      · rw [if_neg h3]
        cases h4 : c.md md msg with
        | none => exact ⟨by decide, .hash h1 h2 (Nat.not_lt.mp h3) rfl h4⟩
        | some hash =>
          simp only
          cases h5 : c.pkSign pk md hash with
          | none => exact ⟨by decide, .sign h1 h2 (Nat.not_lt.mp h3) rfl h4 trivial (by rintro ⟨sig, f, -⟩; rw [h5] at f; cases f)⟩
          | some sig =>
            simp only
            by_cases h6 : 4096 < sig.length
            · rw [if_pos h6]
              exact ⟨by decide, .sign h1 h2 (Nat.not_lt.mp h3) rfl h4 trivial (by rintro ⟨sig, f, g⟩; rw [h5] at f; cases f; omega)⟩
            · rw [if_neg h6]
              exact ⟨not_pemFails h1 h2 (Nat.not_lt.mp h3) rfl h4 trivial ⟨sig, h5, by omega⟩, pk, hash, rfl, h2, by omega, rfl, h5, by omega⟩
    · rw [if_pos (by simp [h2])]
      exact ⟨by decide, .kind h1 h2⟩

theorem signPss_post (md : Md) (key : Bytes) (kl : Nat) (pw : Option Bytes) (msg k : Bytes) (hk : rdN key kl = .ok k) :
    rwp (signPss c md key kl pw msg) (SigPost
      (fun sig => (∀ rc, ¬ PemFails c (.pss md) k pw msg rc) ∧ ∃ pk hash full, c.parseKey k pw = some pk ∧ c.canPss pk = true ∧ 2048 ≤ c.bitlen pk ∧ c.md md msg = some hash ∧
        c.pssSign pk md hash = some full ∧ sig = full.take (c.bitlen pk / 8) ∧ full.length = (c.bitlen pk + 7) / 8 ∧
        sig.length ≤ 4096)
      (PemFails c (.pss md) k pw msg)) E := by
  simp only [signPss, rwp_bind, hk, rwp_ok, hashOf_eq hc]
  cases h1 : c.parseKey k pw with
  | none => exact ⟨by decide, .parse h1⟩
  | some pk =>
    simp only
    by_cases h2 : c.canPss pk = true
    · rw [if_neg (by simp [h2])]
      by_cases h3 : c.bitlen pk < 2048
      · rw [if_pos h3]
        exact ⟨by decide, .weak h1 h2 (fun hx => absurd h3 (Nat.not_lt.mpr hx)) (fun _ _ _ _ hx => by cases hx)⟩
      · rw [if_neg h3]
        cases h4 : c.md md msg with
        | none => exact ⟨by decide, .hash h1 h2 (Nat.not_lt.mp h3) rfl h4⟩
        | some hash =>
          have hr := hc.canPss pk h2
          simp only
          rw [if_neg (by simp [hr])]
          cases h5 : c.pssSign pk md hash with
          | none => exact ⟨by decide, .sign h1 h2 (Nat.not_lt.mp h3) rfl h4 trivial (by rintro ⟨sig, f⟩; rw [h5] at f; cases f)⟩
          | some full =>
            have hl := hc.pss _ _ _ _ h5
            obtain ⟨hb, hm⟩ := hc.rsaLen pk hr
            have hw : wrAt (List.replicate 4096 0) 0 full = .ok (padTo 4096 full) := wrAt_zero _ _ (by omega)
            have hrd : rdN (padTo 4096 full) (c.bitlen pk / 8) = .ok (full.take (c.bitlen pk / 8)) := by
              rw [rdN, padTo_length _ _ (by omega), if_pos (by omega), padTo, List.take_append_of_le_length (by omega)]
            simp only [rwp_bind, hw, rwp_ok, hrd]
            exact ⟨not_pemFails h1 h2 (Nat.not_lt.mp h3) rfl h4 trivial ⟨full, h5⟩, pk, hash, full, rfl, h2, by omega, rfl, h5, rfl, by omega, by simp; omega⟩
    · rw [if_pos (by simp [h2])]
      exact ⟨by decide, .kind h1 h2⟩

theorem signEcdsa_post (alg : Int) (md : Md) (key : Bytes) (kl : Nat) (pw : Option Bytes) (msg k : Bytes) (hk : rdN key kl = .ok k)
    (curve : Curve) (n bits : Nat) (hreq : ecReq alg = some (curve, 2 * n, bits)) (hn : n ≤ 2048) :
    rwp (signEcdsa c alg md key kl pw msg) (SigPost
      (fun sig => (∀ rc, ¬ PemFails c (.ecdsa md curve n bits) k pw msg rc) ∧ ∃ pk hash r s, c.parseKey k pw = some pk ∧ c.canEcdsa pk = true ∧ c.grpId pk = curve ∧ c.bitlen pk = bits ∧
        c.md md msg = some hash ∧ c.ecdsaSign pk hash = some (r, s) ∧ r < 256 ^ n ∧ s < 256 ^ n ∧ sig = be n r ++ be n s ∧
        sig.length ≤ 4096)
      (PemFails c (.ecdsa md curve n bits) k pw msg)) E := by
  simp only [signEcdsa, rwp_bind, hk, rwp_ok, hashOf_eq hc, hreq]
  cases h1 : c.parseKey k pw with
  | none => exact ⟨by decide, .parse h1⟩
  | some pk =>
    simp only
    by_cases h2 : c.canEcdsa pk = true
    · rw [if_neg (by simp [h2]), if_neg (by simp [hc.canEcdsa pk h2])]
      by_cases h3 : c.ecOk pk = true
      · rw [if_neg (by simp [h3])]
        cases h4 : c.md md msg with
        | none => exact ⟨by decide, .hash h1 h2 h3 rfl h4⟩
        | some hash =>
          simp only
          by_cases h5 : c.grpId pk = curve
          · rw [if_neg (by simp [h5])]
            by_cases h6 : c.bitlen pk = bits
            · rw [if_neg (by simp [h6])]
              cases h7 : c.ecdsaSign pk hash with
              | none => exact ⟨by decide, .sign h1 h2 h3 rfl h4 ⟨h5, h6⟩ (by rintro ⟨r, s, i, -⟩; rw [h7] at i; cases i)⟩
              | some rs =>
                obtain ⟨r, s⟩ := rs
                simp only [mpiWrite_eq, Nat.mul_div_cancel_left n (show 0 < 2 by omega)]
                by_cases h8 : r < 256 ^ n
                · rw [if_pos h8]
                  simp only
                  by_cases h9 : s < 256 ^ n
                  · rw [if_pos h9]
                    exact ⟨not_pemFails h1 h2 h3 rfl h4 ⟨h5, h6⟩ ⟨r, s, h7, h8, h9⟩, pk, hash, r, s, rfl, h2, h5, h6, rfl, h7, h8, h9, rfl, by simp [be_length]; omega⟩
                  · rw [if_neg h9]
                    exact ⟨by decide, .sign h1 h2 h3 rfl h4 ⟨h5, h6⟩ (by rintro ⟨r, s, i, j, l⟩; rw [h7] at i; cases i; exact h9 l)⟩
                · rw [if_neg h8]
                  exact ⟨by decide, .sign h1 h2 h3 rfl h4 ⟨h5, h6⟩ (by rintro ⟨r, s, i, j, l⟩; rw [h7] at i; cases i; exact h8 j)⟩
            · rw [if_pos h6]
              exact ⟨by decide, .curve h1 h2 h3 rfl h4 (fun hx => h6 hx.2)⟩
          · rw [if_pos h5]
            exact ⟨by decide, .curve h1 h2 h3 rfl h4 (fun hx => h5 hx.1)⟩
      · rw [if_pos (by simp [h3])]
        exact ⟨by decide, .broken h1 h2 h3 rfl⟩
    · rw [if_pos (by simp [h2])]
      exact ⟨by decide, .kind h1 h2⟩

end families

theorem hexLoop_length (cs : Bool) (d : Bytes) : (hexLoop cs d).length = d.length / 2 := by
  fun_induction hexLoop cs d with
  | case1 a b t ih => simp [ih]; omega
  | case2 l hne =>
    match l, hne with
    | [], _ => rfl
    | [_], _ => simp
    | a :: b :: t, hne => exact absurd rfl (hne a b t)

theorem rd_ok (mem : Bytes) (i : Nat) (h : i < mem.length) : rd mem i = .ok mem[i] := by
  simp [rd, List.getElem?_eq_getElem h]

theorem getLast?_take (mem : Bytes) (n : Nat) (h1 : 1 ≤ n) (h2 : n ≤ mem.length) :
    (mem.take n).getLast? = some (mem[n - 1]'(by omega)) := by
  rw [List.getLast?_eq_getElem?, List.length_take, Nat.min_eq_left h2, List.getElem?_take, if_pos (by omega),
    List.getElem?_eq_getElem (by omega)]

theorem signEd_post {env : Env} (hc : CryptoOk env.crypto) (mem : Bytes) (n : Nat) (msg : Bytes) (h1 : 1 ≤ n)
    (h2 : n ≤ mem.length) (E : UB → Prop) :
    rwp (signEd env (some mem) n msg) (SigPost
      (fun sig => env.eddsa = true ∧ EdKey (mem.take n) ∧ sig.length = 64 ∧
        sig = env.crypto.edSign msg (laxHex env.charSigned ((mem.take n).take 128) ++ [0]))
      (fun rc => (env.eddsa = false ∧ rc = L8W8JWT_UNSUPPORTED_ALG) ∨
        (env.eddsa = true ∧ ¬ EdKey (mem.take n) ∧ rc = L8W8JWT_WRONG_KEY_TYPE))) E := by
  have hlen : (mem.take n).length = n := by rw [List.length_take]; omega
  unfold signEd EdKey
  rw [hlen]
  cases he : env.eddsa with
  | false => exact ⟨by decide, Or.inl ⟨rfl, rfl⟩⟩
  | true =>
    rw [getLast?_take mem n h1 h2]
    simp only [Bool.not_true, Bool.false_eq_true, if_false, rwp_bind, deref, rwp_ok]
    have fin : ∀ hl : Nat, hl = 128 → 128 ≤ n → hexstr2bin env.charSigned (some mem) n (some 65) 65 true =
        (if hl % 2 ≠ 0 then .ok { rc := 2 } else .ok { rc := 0, written := hexLoop env.charSigned (mem.take 128) ++ [0] }) →
        rwp (hexstr2bin env.charSigned (some mem) n (some 65) 65 true) (fun a => rwp (if a.rc ≠ 0 then
            (Except.ok (Except.error L8W8JWT_WRONG_KEY_TYPE) : Res SigRes) else
            Except.ok (Except.ok ((padTo 4096 (env.crypto.edSign msg (padTo 65 a.written))).take 64)))
          (SigPost (fun sig => sig.length = 64 ∧
            sig = env.crypto.edSign msg (laxHex env.charSigned ((mem.take n).take 128) ++ [0])) (fun _ => False)) E) E := by
      intro hl e hn heq
      subst e
      rw [heq]
      simp only [ne_eq, show ¬ ¬ 128 % 2 = 0 by decide, if_false, rwp_ok, not_true_eq_false]
      have hlen : (hexLoop env.charSigned (mem.take 128) ++ [0]).length = 65 := by
        simp [hexLoop_length]; omega
      have hp : padTo 65 (hexLoop env.charSigned (mem.take 128) ++ [0]) = hexLoop env.charSigned (mem.take 128) ++ [0] := by
        rw [padTo, hlen]; simp
      rw [hp]
      have h64 := hc.ed msg (hexLoop env.charSigned (mem.take 128) ++ [0])
      have : (padTo 4096 (env.crypto.edSign msg (hexLoop env.charSigned (mem.take 128) ++ [0]))).take 64 =
          env.crypto.edSign msg (hexLoop env.charSigned (mem.take 128) ++ [0]) := by
        conv => lhs; rw [← h64]
        exact padTo_take _ _
      rw [this]
      refine ⟨h64, ?_⟩
      rw [List.take_take, Nat.min_eq_left hn, hexLoop_lax]
    by_cases h3 : n = 128
    · subst h3
      simp only [if_true, rwp_ok, Bool.not_true, Bool.false_eq_true, if_false, rwp_bind]
      by_cases hz : mem[128 - 1] = 0
      · have : hexstr2bin env.charSigned (some mem) 128 (some 65) 65 true = .ok { rc := 2 } := by
          simp only [hexstr2bin, rd_ok mem (128 - 1) (by omega), bind, Except.bind]
          simp [hz]
        rw [this]
        refine ⟨by decide, Or.inr ⟨trivial, ?_, rfl⟩⟩
        rintro (⟨-, hx⟩ | ⟨hx, -⟩)
        · exact hx (by rw [hz])
        · cases hx
      · have := fin 128 rfl (by omega) (by
          simp only [hexstr2bin, rd_ok mem (128 - 1) (by omega), bind, Except.bind]
          simp [hz, rdN, h2, hexLoop_length])
        refine rwp_mono this (fun a ha => ?_) (fun _ h => h)
        refine rwp_mono ha (fun b hb => ?_) (fun _ h => h)
        cases b with
        | error rc => exact hb.2.elim
        | ok sig => exact ⟨trivial, Or.inl ⟨trivial, fun hx => hz (Option.some.inj hx)⟩, hb⟩
    · rw [if_neg h3]
      by_cases h4 : n = 129
      · subst h4
        simp only [if_true, rwp_ok, rwp_bind, rd_ok mem 128 (by omega)]
        by_cases hz : mem[128] = 0
        · simp only [hz, decide_true, Bool.not_true, Bool.false_eq_true, if_false, rwp_bind]
          have := fin 128 rfl (by omega) (by
            simp only [hexstr2bin, rd_ok mem (129 - 1) (by omega), bind, Except.bind]
            simp [hz, rdN, hexLoop_length, show 128 ≤ mem.length by omega])
          refine rwp_mono this (fun a ha => ?_) (fun _ h => h)
          refine rwp_mono ha (fun b hb => ?_) (fun _ h => h)
          cases b with
          | error rc => exact hb.2.elim
          | ok sig => exact ⟨trivial, Or.inr ⟨trivial, by simp⟩, hb⟩
        · simp only [hz, decide_false, Bool.not_false, if_true, rwp_ok]
          refine ⟨by decide, Or.inr ⟨trivial, ?_, rfl⟩⟩
          rintro (⟨hx, -⟩ | ⟨-, hx⟩)
          · cases hx
          · exact hz (by simpa using hx)
      · simp only [h4, if_false, rwp_ok, Bool.not_false, if_true]
        refine ⟨by decide, Or.inr ⟨trivial, ?_, rfl⟩⟩
        rintro (⟨hx, -⟩ | ⟨hx, -⟩)
        · first | exact h3 hx | exact hx
        · first | exact h4 hx | exact hx

theorem validate_key {p : EncParams} (hv : validateEncodingParams (some p) = L8W8JWT_SUCCESS) :
    ∃ mem, p.secretKey = some mem ∧ 1 ≤ p.secretKeyLength ∧ p.secretKeyLength ≤ L8W8JWT_MAX_KEY_SIZE := by
  simp only [validateEncodingParams] at hv
  split at hv
  · simp at hv
  · rename_i h1
    split at hv
    · simp at hv
    · rename_i h2
      simp only [Bool.or_eq_true, not_or, Option.isNone_iff_eq_none, decide_eq_true_eq] at h1 h2
      cases hs : p.secretKey with
      | none => exact absurd hs h1.1.1
      | some mem => exact ⟨mem, rfl, by omega, by omega⟩

/-- When signing does not fail. -/
theorem not_signFails {env : Env} {p : EncParams} {msg : Bytes} {name : String} {sch : Scheme} (hs : env.crypto.seedOk = true)
    (ha : alg? p.alg = some (name, sch)) (h1 : ∀ md, sch = .hmac md → env.crypto.hmac md (hmacKey (keyBytes p)) msg ≠ none)
    (h2 : ∀ md, sch.prehash = some md → ∀ rc, ¬ PemFails env.crypto sch (pemKey (keyBytes p)) (password p) msg rc)
    (h3 : sch = .eddsa → env.eddsa = true ∧ EdKey (keyBytes p)) (rc : Nat) : ¬ SignFails env p msg rc := by
  intro h
  cases h with
  | seed g => rw [hs] at g; cases g
  | hmac _ g1 g2 => rw [ha] at g1; cases g1; exact h1 _ rfl g2
  | pem _ g1 g2 g3 => rw [ha] at g1; cases g1; exact h2 _ g2 _ g3
  | edOff _ g1 g2 => rw [ha] at g1; cases g1; rw [(h3 rfl).1] at g2; cases g2
  | edKey _ g1 _ g3 => rw [ha] at g1; cases g1; exact g3 (h3 rfl).2

/-- If signing fails, it is impossible. -/
theorem signFails_not {env : Env} {p : EncParams} {msg : Bytes} {rc : Nat} (h : SignFails env p msg rc) : ¬ CanSign env p msg := by
  rintro ⟨hs, hk, hc⟩
  cases h with
  | seed g => rw [hs] at g; cases g
  | hmac _ g1 g2 => rw [g1] at hc; obtain ⟨sig, hc⟩ := hc; rw [g2] at hc; cases hc
  | @pem name sch md rc _ g1 g2 g3 =>
    rw [g1] at hc
    simp only [KeySuits, g1] at hk
    cases sch with
    | hmac => cases g2
    | eddsa => cases g2
    | rsa md =>
      obtain ⟨pk, a1, a2, a3⟩ := hk
      obtain ⟨pk', hash, sig, b1, b2, b3, b4⟩ := hc
      rw [a1] at b1; cases b1
      exact not_pemFails (sch := .rsa md) a1 a2 a3 rfl b2 trivial ⟨sig, b3, b4⟩ _ g3
    | pss md =>
      obtain ⟨pk, a1, a2, a3⟩ := hk
      obtain ⟨pk', hash, sig, b1, b2, b3⟩ := hc
      rw [a1] at b1; cases b1
      exact not_pemFails (sch := .pss md) a1 a2 a3 rfl b2 trivial ⟨sig, b3⟩ _ g3
    | ecdsa md cv n b =>
      obtain ⟨pk, a1, a2, a3, a4⟩ := hk
      obtain ⟨pk', hash, r, s, b1, b2, b3, b4, b5, b6⟩ := hc
      rw [a1] at b1; cases b1
      exact not_pemFails (sch := .ecdsa md cv n b) a1 a2 b2 rfl b3 ⟨a3, a4⟩ ⟨r, s, b4, b5, b6⟩ _ g3
  | edOff _ g1 g2 => simp only [KeySuits, g1] at hk; rw [g2] at hk; cases hk.1
  | edKey _ g1 _ g3 =>
    simp only [KeySuits, g1] at hk
    rw [g1] at hc
    exact g3 hk.2

/-- Everything about signing, in terms of the specification. -/
theorem sigOf_full {env : Env} (hc : CryptoOk env.crypto) (p : EncParams) (msg : Bytes) (E : UB → Prop)
    (hv : validateEncodingParams (some p) = L8W8JWT_SUCCESS) (ha : (alg? p.alg).isSome)
    (hd : (KeyReadable p ∧ (env.crypto.seedOk = true → needsPem p.alg → PemFits p)) ∨ ∀ e, E e) :
    rwp (sigOf env p msg) (SigPost (fun sig => (∀ rc, ¬ SignFails env p msg rc) ∧ Emits env p msg sig) (SignFails env p msg)) E := by
  obtain ⟨mem, hm, hn1, hn2⟩ := validate_key hv
  by_cases hl : p.secretKeyLength ≤ mem.length
  case neg =>
    rcases hd with ⟨⟨⟨mem', h1, h2⟩, -⟩, -⟩ | hE
    · rw [hm] at h1; cases h1; exact absurd h2 hl
    · simp only [sigOf, rwp_bind, loadKey, hm, deref, rdN, hl, if_false, rwp_ok, rwp_error]
      exact hE _
  have hkb : keyBytes p = mem.take p.secretKeyLength := by simp [keyBytes, hm]
  have hkl : (keyBytes p).length = p.secretKeyLength := by simp [hkb, hl]
  have hload : loadKey p.secretKey p.secretKeyLength = .ok (padTo L8W8JWT_MAX_KEY_SIZE (keyBytes p),
      if (keyBytes p).getLast? = some 0 then (keyBytes p).length else (keyBytes p).length + 1) := by
    rw [hm, loadKey_eq _ _ hn1 hn2 hl, ← hkb, hkl]
  have hhm := rdN_hmac L8W8JWT_MAX_KEY_SIZE (keyBytes p) (by omega) (by omega)
  have hpe := rdN_pem L8W8JWT_MAX_KEY_SIZE (keyBytes p) (by omega)
  simp only [sigOf, rwp_bind, hload, rwp_ok]
  generalize padTo L8W8JWT_MAX_KEY_SIZE (keyBytes p) = key at *
  generalize (if (keyBytes p).getLast? = some 0 then (keyBytes p).length else (keyBytes p).length + 1) = kl at *
  by_cases hseed : env.crypto.seedOk = true
  case neg =>
    simp only [signSwitch, hseed, Bool.not_false, if_true, rwp_ok]
    exact ⟨by decide, .seed (by simpa using hseed)⟩
  -- the three algorithms of each family
  have hmacCase : ∀ name md, alg? p.alg = some (name, .hmac md) → encMd p.alg = some md → 32 + 16 * p.alg.toNat = md.len →
      rwp (do let md ← deref (encMd p.alg); signHmac env.crypto p.alg md key kl msg)
        (SigPost (fun sig => (∀ rc, ¬ SignFails env p msg rc) ∧ Emits env p msg sig) (SignFails env p msg)) E := by
    intro name md e1 e2 e3
    simp only [rwp_bind, deref, e2, rwp_ok, signHmac_eq hc p.alg md key kl msg _ e3 hhm]
    cases ht : env.crypto.hmac md (hmacKey (keyBytes p)) msg with
    | none => exact ⟨by decide, .hmac hseed e1 ht⟩
    | some t =>
      refine ⟨not_signFails hseed e1 (fun md hx => by cases hx; rw [ht]; simp) (fun _ hx => by cases hx) (fun hx => by cases hx), by simp [KeySuits, e1], ?_, by simp [e1, Signs, ht]⟩
      have := hc.hmac _ _ _ _ ht
      cases md <;> simp [Md.len] at this <;> omega
  have pemCase : ∀ (f : Md → Bytes → Nat → Option Bytes → Res SigRes) md, encMd p.alg = some md → needsPem p.alg →
      (rdN key kl = .ok (pemKey (keyBytes p)) → rwp (f md key kl (password p)) (SigPost (fun sig => (∀ rc, ¬ SignFails env p msg rc) ∧ Emits env p msg sig) (SignFails env p msg)) E) →
      (rdN key kl = .error .oobRead → ∀ pw, f md key kl pw = .error .oobRead) →
      rwp (do let md ← deref (encMd p.alg); let pw ← pwArg p.secretKeyPw p.secretKeyPwLength; f md key kl pw)
        (SigPost (fun sig => (∀ rc, ¬ SignFails env p msg rc) ∧ Emits env p msg sig) (SignFails env p msg)) E := by
    intro f md e1 e2 h1 h2
    simp only [rwp_bind, deref, e1, rwp_ok]
    rcases pwArg_eq p with hpw | ⟨pm, hp1, hp2⟩
    · rw [hpw, rwp_ok]
      by_cases hf : (keyBytes p).length < L8W8JWT_MAX_KEY_SIZE ∨ (keyBytes p).getLast? = some 0
      · rw [if_pos hf] at hpe
        exact h1 hpe
      · rw [if_neg hf] at hpe
        rw [h2 hpe]
        rcases hd with ⟨-, hd⟩ | hd
        · exact absurd (hd hseed e2) hf
        · exact hd _
    · rcases hd with ⟨⟨-, hd⟩, -⟩ | hd
      · have := hd pm hp1; omega
      · simp only [pwArg, hp1, rdN, if_neg (show ¬ p.secretKeyPwLength ≤ pm.length by omega), rwp_bind, rwp_error]
        exact hd _
  have rsaCase : ∀ name md, alg? p.alg = some (name, .rsa md) → encMd p.alg = some md → needsPem p.alg →
      rwp (do let md ← deref (encMd p.alg); let pw ← pwArg p.secretKeyPw p.secretKeyPwLength; signRsa env.crypto md key kl pw msg)
        (SigPost (fun sig => (∀ rc, ¬ SignFails env p msg rc) ∧ Emits env p msg sig) (SignFails env p msg)) E := by
    intro name md e1 e2 e3
    refine pemCase (fun md key kl pw => signRsa env.crypto md key kl pw msg) md e2 e3 (fun hk => ?_) (fun hk pw => ?_)
    · refine rwp_mono (signRsa_post hc md key kl (password p) msg _ hk) ?_ (fun _ h => h)
      intro r hr
      cases r with
      | error rc =>
        exact ⟨hr.1, .pem hseed e1 rfl hr.2⟩
      | ok sig =>
        obtain ⟨a0, pk, hash, a1, a2, a3, a4, a5, a6⟩ := hr
        exact ⟨not_signFails hseed e1 (fun _ hx => by cases hx) (fun _ _ => a0) (fun hx => by cases hx), by simp only [KeySuits, e1]; exact ⟨pk, a1, a2, a3⟩, a6, by simp only [e1, Signs]; exact ⟨pk, hash, a1, a4, a5⟩⟩
    · simp only [signRsa, hk, bind, Except.bind]
  have pssCase : ∀ name md, alg? p.alg = some (name, .pss md) → encMd p.alg = some md → needsPem p.alg →
      rwp (do let md ← deref (encMd p.alg); let pw ← pwArg p.secretKeyPw p.secretKeyPwLength; signPss env.crypto md key kl pw msg)
        (SigPost (fun sig => (∀ rc, ¬ SignFails env p msg rc) ∧ Emits env p msg sig) (SignFails env p msg)) E := by
    intro name md e1 e2 e3
    refine pemCase (fun md key kl pw => signPss env.crypto md key kl pw msg) md e2 e3 (fun hk => ?_) (fun hk pw => ?_)
    · refine rwp_mono (signPss_post hc md key kl (password p) msg _ hk) ?_ (fun _ h => h)
      intro r hr
      cases r with
      | error rc =>
        exact ⟨hr.1, .pem hseed e1 rfl hr.2⟩
      | ok sig =>
        obtain ⟨a0, pk, hash, full, a1, a2, a3, a4, a5, a6, a7, a8⟩ := hr
        exact ⟨not_signFails hseed e1 (fun _ hx => by cases hx) (fun _ _ => a0) (fun hx => by cases hx), by simp only [KeySuits, e1]; exact ⟨pk, a1, a2, a3⟩, a8, by simp only [e1]; exact ⟨pk, hash, full, a1, a4, a5, a6, a7⟩⟩
    · simp only [signPss, hk, bind, Except.bind]
  have ecCase : ∀ name md curve n bits, alg? p.alg = some (name, .ecdsa md curve n bits) → encMd p.alg = some md → needsPem p.alg →
      ecReq p.alg = some (curve, 2 * n, bits) → n ≤ 2048 →
      rwp (do let md ← deref (encMd p.alg); let pw ← pwArg p.secretKeyPw p.secretKeyPwLength; signEcdsa env.crypto p.alg md key kl pw msg)
        (SigPost (fun sig => (∀ rc, ¬ SignFails env p msg rc) ∧ Emits env p msg sig) (SignFails env p msg)) E := by
    intro name md curve n bits e1 e2 e3 e4 e5
    refine pemCase (fun md key kl pw => signEcdsa env.crypto p.alg md key kl pw msg) md e2 e3 (fun hk => ?_) (fun hk pw => ?_)
    · refine rwp_mono (signEcdsa_post hc p.alg md key kl (password p) msg _ hk curve n bits e4 e5) ?_ (fun _ h => h)
      intro r hr
      cases r with
      | error rc =>
        exact ⟨hr.1, .pem hseed e1 rfl hr.2⟩
      | ok sig =>
        obtain ⟨a0, pk, hash, r, s, a1, a2, a3, a4, a5, a6, a7, a8, a9, a10⟩ := hr
        exact ⟨not_signFails hseed e1 (fun _ hx => by cases hx) (fun _ _ => a0) (fun hx => by cases hx), by simp only [KeySuits, e1]; exact ⟨pk, a1, a2, a3, a4⟩, a10,
          by simp only [e1, Signs]; exact ⟨pk, hash, r, s, a1, a5, a6, a7, a8, a9⟩⟩
    · simp only [signEcdsa, hk, bind, Except.bind]
  have edCase : ∀ name, alg? p.alg = some (name, .eddsa) → rwp (signEd env p.secretKey p.secretKeyLength msg)
        (SigPost (fun sig => (∀ rc, ¬ SignFails env p msg rc) ∧ Emits env p msg sig) (SignFails env p msg)) E := by
    intro name e1
    rw [hm]
    refine rwp_mono (signEd_post hc mem p.secretKeyLength msg hn1 hl E) ?_ (fun _ h => h)
    intro r hr
    cases r with
    | error rc =>
      refine ⟨hr.1, ?_⟩
      rcases hr.2 with ⟨a1, rfl⟩ | ⟨a1, a2, rfl⟩
      · exact .edOff hseed e1 a1
      · exact .edKey hseed e1 a1 (by rw [hkb]; exact a2)
    | ok sig =>
      obtain ⟨a1, a0, a3, a4⟩ := hr
      refine ⟨not_signFails hseed e1 (fun _ hx => by cases hx) (fun _ hx => by cases hx) (fun _ => ⟨a1, by rw [hkb]; exact a0⟩), by simp only [KeySuits, e1]; rw [hkb]; exact ⟨a1, a0⟩, by omega, ?_⟩
      simp only [e1, Signs]
      rw [hkb]
      exact ⟨a3, a4⟩
  unfold signSwitch
  simp only [hseed, Bool.not_true, Bool.false_eq_true, if_false]
  rcases alg?_range p.alg with ⟨⟨j, hj⟩, hje⟩ | ⟨h, -⟩
  case inr => rw [h] at ha; cases ha
  simp only at hje
  match j, hj with
  | 0, _ => rw [if_pos (by rw [hje]; decide)]; exact hmacCase "HS256" .sha256 (by rw [hje]; rfl) (by rw [hje]; rfl) (by rw [hje]; rfl)
  | 1, _ => rw [if_pos (by rw [hje]; decide)]; exact hmacCase "HS384" .sha384 (by rw [hje]; rfl) (by rw [hje]; rfl) (by rw [hje]; rfl)
  | 2, _ => rw [if_pos (by rw [hje]; decide)]; exact hmacCase "HS512" .sha512 (by rw [hje]; rfl) (by rw [hje]; rfl) (by rw [hje]; rfl)
  | 3, _ =>
    rw [if_neg (by rw [hje]; decide), if_pos (by rw [hje]; decide)]
    exact rsaCase "RS256" .sha256 (by rw [hje]; rfl) (by rw [hje]; rfl) (by rw [hje]; exact ⟨by decide, by decide⟩)
  | 4, _ =>
    rw [if_neg (by rw [hje]; decide), if_pos (by rw [hje]; decide)]
    exact rsaCase "RS384" .sha384 (by rw [hje]; rfl) (by rw [hje]; rfl) (by rw [hje]; exact ⟨by decide, by decide⟩)
  | 5, _ =>
    rw [if_neg (by rw [hje]; decide), if_pos (by rw [hje]; decide)]
    exact rsaCase "RS512" .sha512 (by rw [hje]; rfl) (by rw [hje]; rfl) (by rw [hje]; exact ⟨by decide, by decide⟩)
  | 6, _ =>
    rw [if_neg (by rw [hje]; decide), if_neg (by rw [hje]; decide), if_pos (by rw [hje]; decide)]
    exact pssCase "PS256" .sha256 (by rw [hje]; rfl) (by rw [hje]; rfl) (by rw [hje]; exact ⟨by decide, by decide⟩)
  | 7, _ =>
    rw [if_neg (by rw [hje]; decide), if_neg (by rw [hje]; decide), if_pos (by rw [hje]; decide)]
    exact pssCase "PS384" .sha384 (by rw [hje]; rfl) (by rw [hje]; rfl) (by rw [hje]; exact ⟨by decide, by decide⟩)
  | 8, _ =>
    rw [if_neg (by rw [hje]; decide), if_neg (by rw [hje]; decide), if_pos (by rw [hje]; decide)]
    exact pssCase "PS512" .sha512 (by rw [hje]; rfl) (by rw [hje]; rfl) (by rw [hje]; exact ⟨by decide, by decide⟩)
  | 9, _ =>
    rw [if_neg (by rw [hje]; decide), if_neg (by rw [hje]; decide), if_neg (by rw [hje]; decide), if_pos (by rw [hje]; decide)]
    exact ecCase "ES256" .sha256 .secp256r1 32 256 (by rw [hje]; rfl) (by rw [hje]; rfl) (by rw [hje]; exact ⟨by decide, by decide⟩) (by rw [hje]; rfl) (by decide)
  | 10, _ =>
    rw [if_neg (by rw [hje]; decide), if_neg (by rw [hje]; decide), if_neg (by rw [hje]; decide), if_pos (by rw [hje]; decide)]
    exact ecCase "ES384" .sha384 .secp384r1 48 384 (by rw [hje]; rfl) (by rw [hje]; rfl) (by rw [hje]; exact ⟨by decide, by decide⟩) (by rw [hje]; rfl) (by decide)
  | 11, _ =>
    rw [if_neg (by rw [hje]; decide), if_neg (by rw [hje]; decide), if_neg (by rw [hje]; decide), if_pos (by rw [hje]; decide)]
    exact ecCase "ES512" .sha512 .secp521r1 66 521 (by rw [hje]; rfl) (by rw [hje]; rfl) (by rw [hje]; exact ⟨by decide, by decide⟩) (by rw [hje]; rfl) (by decide)
  | 12, _ =>
    rw [if_neg (by rw [hje]; decide), if_neg (by rw [hje]; decide), if_neg (by rw [hje]; decide), if_pos (by rw [hje]; decide)]
    exact ecCase "ES256K" .sha256 .secp256k1 32 256 (by rw [hje]; rfl) (by rw [hje]; rfl) (by rw [hje]; exact ⟨by decide, by decide⟩) (by rw [hje]; rfl) (by decide)
  | 13, _ =>
    rw [if_neg (by rw [hje]; decide), if_neg (by rw [hje]; decide), if_neg (by rw [hje]; decide), if_neg (by rw [hje]; decide), if_pos (by rw [hje]; decide)]
    exact edCase "EdDSA" (by rw [hje]; rfl)

theorem sigOf_post {env : Env} (hc : CryptoOk env.crypto) (p : EncParams) (msg : Bytes) (E : UB → Prop)
    (hv : validateEncodingParams (some p) = L8W8JWT_SUCCESS) (ha : (alg? p.alg).isSome)
    (hd : (KeyReadable p ∧ (env.crypto.seedOk = true → needsPem p.alg → PemFits p)) ∨ ∀ e, E e) :
    rwp (sigOf env p msg) (SigPost (Emits env p msg) (fun _ => ¬ CanSign env p msg)) E := by
  refine rwp_mono (sigOf_full hc p msg E hv ha hd) (fun r hr => ?_) (fun _ h => h)
  cases r with
  | error rc => exact ⟨hr.1, signFails_not hr.2⟩
  | ok sig => exact hr.2

/-! ## Return codes of signing -/

/-- Errors of the signing part have nonzero codes. -/
def RcOk (r : SigRes) : Prop := SigPost (fun _ => True) (fun _ => True) r

theorem rwp_any (r : Res α) : rwp r (fun _ => True) (fun _ => True) := by unfold rwp; split <;> trivial

theorem rwp_true (r : Res α) (Q : α → Prop) (h : ∀ a, Q a) : rwp r Q (fun _ => True) :=
  rwp_mono (rwp_any r) (fun a _ => h a) (fun _ h => h)

theorem rwp_ite' {c : Prop} [Decidable c] {a b : Res α} {Q : α → Prop} {E : UB → Prop} (h1 : rwp a Q E) (h2 : rwp b Q E) :
    rwp (if c then a else b) Q E := by split <;> assumption

theorem rcOk_error (rc : Nat) (h : rc ≠ L8W8JWT_SUCCESS) : RcOk (.error rc) := ⟨h, trivial⟩

theorem signHmac_rc (c : Crypto) (alg : Int) (md : Md) (key : Bytes) (kl : Nat) (msg : Bytes) :
    rwp (signHmac c alg md key kl msg) RcOk (fun _ => True) := by
  simp only [signHmac, rwp_bind]
  refine rwp_true _ _ fun k => ?_
  split
  · exact rcOk_error _ (by decide)
  · trivial

theorem signRsa_rc (c : Crypto) (md : Md) (key : Bytes) (kl : Nat) (pw : Option Bytes) (msg : Bytes) :
    rwp (signRsa c md key kl pw msg) RcOk (fun _ => True) := by
  simp only [signRsa, rwp_bind]
  refine rwp_true _ _ fun k => ?_
  repeat' split
  all_goals first | exact rcOk_error _ (by decide) | trivial

theorem signPss_rc (c : Crypto) (md : Md) (key : Bytes) (kl : Nat) (pw : Option Bytes) (msg : Bytes) :
    rwp (signPss c md key kl pw msg) RcOk (fun _ => True) := by
  simp only [signPss, rwp_bind]
  refine rwp_true _ _ fun k => ?_
  repeat' split
  all_goals first
    | exact rcOk_error _ (by decide)
    | trivial
    | (simp only [rwp_bind]; exact rwp_true _ _ fun _ => rwp_true _ _ fun _ => trivial)

theorem signEcdsa_rc (c : Crypto) (alg : Int) (md : Md) (key : Bytes) (kl : Nat) (pw : Option Bytes) (msg : Bytes) :
    rwp (signEcdsa c alg md key kl pw msg) RcOk (fun _ => True) := by
  simp only [signEcdsa, rwp_bind]
  refine rwp_true _ _ fun k => ?_
  repeat' split
  all_goals first | exact rcOk_error _ (by decide) | trivial

theorem signEd_rc (env : Env) (k : Option Bytes) (n : Nat) (msg : Bytes) :
    rwp (signEd env k n msg) RcOk (fun _ => True) := by
  unfold signEd
  split
  · exact rcOk_error _ (by decide)
  · simp only [rwp_bind]
    refine rwp_true _ _ fun mem => rwp_true _ _ fun good => ?_
    split
    · exact rcOk_error _ (by decide)
    · simp only [rwp_bind]
      refine rwp_true _ _ fun o => ?_
      split
      · exact rcOk_error _ (by decide)
      · trivial

theorem sigOf_rc (env : Env) (p : EncParams) (msg : Bytes) : rwp (sigOf env p msg) RcOk (fun _ => True) := by
  simp only [sigOf, rwp_bind]
  refine rwp_true _ _ fun k => ?_
  unfold signSwitch
  refine rwp_ite' (rcOk_error _ (by decide)) (rwp_ite' ?_ (rwp_ite' ?_ (rwp_ite' ?_ (rwp_ite' ?_ (rwp_ite' ?_ ?_)))))
  · rw [rwp_bind]; exact rwp_true _ _ fun md => signHmac_rc _ _ _ _ _ _
  · simp only [rwp_bind]; exact rwp_true _ _ fun md => rwp_true _ _ fun pw => signRsa_rc _ _ _ _ _ _
  · simp only [rwp_bind]; exact rwp_true _ _ fun md => rwp_true _ _ fun pw => signPss_rc _ _ _ _ _ _
  · simp only [rwp_bind]; exact rwp_true _ _ fun md => rwp_true _ _ fun pw => signEcdsa_rc _ _ _ _ _ _ _
  · exact signEd_rc _ _ _ _
  · exact rcOk_error _ (by decide)

end L8w8jwt
