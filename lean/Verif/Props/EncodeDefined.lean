import Verif.Props.Codes
/-!
# Property C64: exactly when encoding is defined
-/

namespace L8w8jwt
open Spec

variable {cap : Nat} {s : Sched} {h h' : Heap} {env : Env} {p : EncParams}

/-! ## Characters outside ASCII -/

theorem textsOk_iff : TextsOk env p ↔ TextsReadable p ∧ (env.charSigned = true → TextsAscii p) := by
  have hs : ∀ v n, strOk env.charSigned v n ↔ strOk false v n ∧ (env.charSigned = true → ∀ b, v = some b → ∀ c ∈ arg b.mem n, c < 128) := by
    intro v n
    constructor
    · intro hx
      exact ⟨fun b hb => ⟨(hx b hb).1, fun hc => by cases hc⟩, fun ha b hb => (hx b hb).2 ha⟩
    · rintro ⟨h1, h2⟩ b hb
      exact ⟨(h1 b hb).1, fun ha => h2 ha b hb⟩
  have hcl : ∀ cl n, claimsOk env.charSigned cl n ↔ claimsOk false cl n ∧ (env.charSigned = true → claimsAscii cl n) := by
    intro cl n
    constructor
    · intro hx
      refine ⟨fun l hl => ⟨(hx l hl).1, (hx l hl).2.1, fun hc => by cases hc⟩, fun ha => ?_⟩
      cases cl with
      | none => intro c hc; simp at hc
      | some l => exact (hx l rfl).2.2 ha
    · rintro ⟨h1, h2⟩ l hl
      refine ⟨(h1 l hl).1, (h1 l hl).2.1, fun ha => ?_⟩
      subst hl
      exact h2 ha
  constructor
  · intro ht
    refine ⟨⟨((hs _ _).mp ht.iss).1, ((hs _ _).mp ht.sub).1, ((hs _ _).mp ht.aud).1, ((hs _ _).mp ht.jti).1,
      ((hcl _ _).mp ht.header).1, ((hcl _ _).mp ht.payload).1⟩, fun ha => ⟨?_, ((hcl _ _).mp ht.header).2 ha, ((hcl _ _).mp ht.payload).2 ha⟩⟩
    intro v n hv
    simp only [List.mem_cons, Prod.mk.injEq, List.not_mem_nil, or_false] at hv
    rcases hv with ⟨rfl, rfl⟩ | ⟨rfl, rfl⟩ | ⟨rfl, rfl⟩ | ⟨rfl, rfl⟩
    · exact ((hs _ _).mp ht.iss).2 ha
    · exact ((hs _ _).mp ht.sub).2 ha
    · exact ((hs _ _).mp ht.aud).2 ha
    · exact ((hs _ _).mp ht.jti).2 ha
  · rintro ⟨hr, ha⟩
    refine ⟨(hs _ _).mpr ⟨hr.iss, fun h => (ha h).1 _ _ (by simp)⟩, (hs _ _).mpr ⟨hr.sub, fun h => (ha h).1 _ _ (by simp)⟩,
      (hs _ _).mpr ⟨hr.aud, fun h => (ha h).1 _ _ (by simp)⟩, (hs _ _).mpr ⟨hr.jti, fun h => (ha h).1 _ _ (by simp)⟩,
      (hcl _ _).mpr ⟨hr.header, fun h => (ha h).2.1⟩, (hcl _ _).mpr ⟨hr.payload, fun h => (ha h).2.2⟩⟩

theorem wp_any {α : Type} (m : M α) : wp m s h (fun _ _ => True) (fun _ => True) := by unfold wp; split <;> trivial

/-- Continuing after anything. -/
theorem wp_then {α β : Type} (m : M α) (k : α → M β) (Q : β → Heap → Prop) (hk : ∀ a h, wp (k a) s h Q (fun _ => True)) :
    wp (m >>= k) s h Q (fun _ => True) := by
  rw [wp_bind]
  exact wp_mono (wp_any m) (fun a h' _ => hk a h') (fun _ h => h)

theorem not_ascii {txt : Bytes} (hb : ¬ ∀ c ∈ txt, c < 128) : ∃ c ∈ txt, 128 ≤ c := by
  refine Classical.byContradiction fun hn => hb fun c hc => ?_
  have : ¬ 128 ≤ c := fun hx => hn ⟨c, hc, hx⟩
  rw [UInt8.lt_iff_toNat_lt]; rw [UInt8.le_iff_toNat_le] at this; omega

theorem escapeClaimString_bad (i : Nat) (mem : Bytes) (n : Nat) (hok : argOk mem n) (hb : ¬ ∀ c ∈ arg mem n, c < 128)
    (Q : Bytes → Heap → Prop) :
    ∃ k, lenOrStrlen (some ⟨i, mem⟩) n = .ok k ∧ ∀ h, wp (escapeClaimString true (some ⟨i, mem⟩) k) s h Q (fun _ => True) := by
  obtain ⟨k1, k2, k3⟩ := lenOrStrlen_eq i mem n hok
  refine ⟨_, k1, fun h => ?_⟩
  simp only [escapeClaimString, wp_bind, wp_lift, Ptr.bytes, Option.map_some, deref, rwp_ok, rdN, k2, if_true, k3]
  unfold wp
  rw [escapeLoop_bad _ _ (not_ascii hb)]
  trivial

theorem writeClaim_bad (buf : Bytes) (first : Bool) (c : Claim) (m : Member) (hm : member c = some m) (hok : m.ok) (hb : ¬ m.ascii)
    (Q : Bytes × Bool → Heap → Prop) : wp (writeClaim cap true buf first c) s h Q (fun _ => True) := by
  obtain ⟨key, kl, value, vl, type⟩ := c
  unfold member at hm
  cases key with
  | none => simp at hm
  | some k =>
    cases value with
    | none => simp at hm
    | some v =>
      obtain ⟨ki, k⟩ := k
      obtain ⟨vi, v⟩ := v
      simp only [Option.some.injEq] at hm
      subst hm
      simp only [Member.ok] at hok
      obtain ⟨v1, -, -⟩ := lenOrStrlen_eq vi v vl hok.2
      unfold writeClaim
      simp only
      refine wp_then _ _ _ fun b h1 => ?_
      by_cases hk : ∀ c ∈ arg k kl, c < 128
      · obtain ⟨k1, -, -⟩ := lenOrStrlen_eq ki k kl hok.1
        have hv : type = L8W8JWT_CLAIM_TYPE_STRING ∧ ¬ ∀ c ∈ arg v vl, c < 128 := by
          refine Classical.byContradiction fun hn => hb ⟨hk, fun ht => Classical.byContradiction fun hx => hn ⟨?_, hx⟩⟩
          simpa using ht
        obtain ⟨n, e1, e2⟩ := escapeClaimString_bad (s := s) vi v vl hok.2 hv.2 (fun e h' => wp (do
          let buf ← push cap (buf ++ []) e
          let buf ← push cap buf (str "\"")
          pure (buf, false)) s h' Q (fun _ => True))
        simp only [k1, e1, wp_bind, wp_lift, rwp_ok]
        refine wp_mono (wp_any _) (fun e h2 _ => ?_) (fun _ h => h)
        simp only [← wp_bind]
        refine wp_then _ _ _ fun _ _ => wp_then _ _ _ fun _ _ => wp_then _ _ _ fun _ _ => ?_
        rw [if_pos hv.1]
        refine wp_then _ _ _ fun _ h3 => ?_
        rw [wp_bind]
        obtain ⟨n', e3, e4⟩ := escapeClaimString_bad (s := s) vi v vl hok.2 hv.2 (fun _ _ => False)
        rw [e1] at e3; cases e3
        exact wp_mono (e4 h3) (fun _ _ h => h.elim) (fun _ h => h)
      · obtain ⟨n, e1, e2⟩ := escapeClaimString_bad (s := s) ki k kl hok.1 hk (fun _ _ => False)
        simp only [e1, v1, wp_bind, wp_lift, rwp_ok]
        exact wp_mono (e2 h1) (fun _ _ h => h.elim) (fun _ h => h)

theorem writeClaimsLoop_bad (buf : Bytes) (first : Bool) (l : List Claim) (hok : ∀ c ∈ l, claimOk c)
    (hb : ∃ c ∈ l, ∃ m, member c = some m ∧ ¬ m.ascii) (Q : Bytes → Heap → Prop) :
    wp (writeClaimsLoop cap true buf first l) s h Q (fun _ => True) := by
  induction l generalizing buf first h with
  | nil => obtain ⟨c, hc, -⟩ := hb; cases hc
  | cons c t ih =>
    obtain ⟨x, hx, m, hm, hn⟩ := hb
    unfold writeClaimsLoop
    rcases List.mem_cons.mp hx with rfl | hx
    · rw [wp_bind]
      have hmo : m.ok := by
        rcases hok x (by simp) with h1 | ⟨m', h1, h2⟩
        · simp [member, h1] at hm
        · rw [hm] at h1; cases h1; exact h2
      exact wp_mono (writeClaim_bad buf first x m hm hmo hn (fun _ _ => False)) (fun _ _ h => h.elim) (fun _ h => h)
    · exact wp_then _ _ _ fun a h1 => ih a.1 a.2 (fun c hc => hok c (by simp [hc])) ⟨x, hx, m, hm, hn⟩

theorem writeClaimsIgnore_bad (hs : env.charSigned = true) (ha : ∀ k, s.failAlloc k = false) (buf : Bytes)
    (claims : Option (List Claim)) (n : Nat) (hok : claimsOk false claims n) (hb : ¬ claimsAscii claims n) (Q : Bytes → Heap → Prop) :
    wp (writeClaimsIgnore env buf claims n) s h Q (fun _ => True) := by
  have hb' : ∃ l, claims = some l ∧ ∃ c ∈ l.take n, ∃ m, member c = some m ∧ ¬ m.ascii := by
    refine Classical.byContradiction fun hn => hb fun c hc m hm => Classical.byContradiction fun hx => hn ?_
    cases claims with
    | none => simp at hc
    | some l => exact ⟨l, rfl, c, hc, m, hm, hx⟩
  obtain ⟨l, rfl, hb'⟩ := hb'
  obtain ⟨h1, h2, -⟩ := hok l rfl
  have hn : n ≠ 0 := by rintro rfl; obtain ⟨c, hc, -⟩ := hb'; simp at hc
  simp only [writeClaimsIgnore, writeClaims, hn, if_false, hs]
  rw [wp_bind, wp_bind, wp_alloc]
  refine ⟨fun hx => absurd hx (by rw [ha]; decide), fun _ => ?_⟩
  simp only [wp_bind, wp_lift, rdN, h1, if_true, rwp_ok]
  exact wp_mono (writeClaimsLoop_bad _ _ _ h2 hb' (fun _ _ => False)) (fun _ _ h => h.elim) (fun _ h => h)

theorem headerText_bad (hs : env.charSigned = true) (ha : ∀ k, s.failAlloc k = false) (buf : Bytes)
    (hok : claimsOk false p.headerClaims p.headerClaimsCount) (hb : ¬ claimsAscii p.headerClaims p.headerClaimsCount)
    (Q : Bytes → Heap → Prop) : wp (headerText env p buf) s h Q (fun _ => True) := by
  have h0 : 0 < p.headerClaimsCount := by
    refine Nat.pos_of_ne_zero fun h0 => hb ?_
    rw [h0]; intro c hc; simp at hc
  simp only [headerText, h0, if_true]
  rw [wp_bind, wp_bind]
  refine wp_mono (wp_any _) (fun a h1 _ => ?_) (fun _ h => h)
  exact wp_mono (writeClaimsIgnore_bad hs ha a _ _ hok hb (fun _ _ => False)) (fun _ _ h => h.elim) (fun _ h => h)

theorem payloadText_bad (hs : env.charSigned = true) (ha : ∀ k, s.failAlloc k = false) (hr : TextsReadable p)
    (hb : ¬ ((∀ v n, (v, n) ∈ [(p.iss, p.issLength), (p.sub, p.subLength), (p.aud, p.audLength), (p.jti, p.jtiLength)] →
      ∀ b, v = some b → ∀ c ∈ arg b.mem n, c < 128) ∧ claimsAscii p.payloadClaims p.payloadClaimsCount))
    (Q : Bytes → Heap → Prop) : wp (payloadText env p) s h Q (fun _ => True) := by
  obtain ⟨l, e1, e2, e3, e4⟩ := registeredClaims_eq false p hr.iss hr.sub hr.aud hr.jti
  simp only [payloadText, wp_bind, wp_lift, e1, rwp_ok]
  refine wp_mono (wp_any _) (fun b1 h1 _ => ?_) (fun _ h => h)
  by_cases hb1 : claimsAscii (some l) 7
  case neg => exact wp_mono (writeClaimsIgnore_bad hs ha b1 _ _ e3 hb1 (fun _ _ => False)) (fun _ _ h => h.elim) (fun _ h => h)
  have hb2 : ¬ claimsAscii p.payloadClaims p.payloadClaimsCount := by
    intro hx
    refine hb ⟨?_, hx⟩
    have hmem : ∀ k v n, strClaim k v n ∈ l → ∀ b, v = some b → ∀ c ∈ arg b.mem n, c < 128 := by
      rintro k v n hm b rfl
      exact (hb1 _ (by simpa [← e2] using hm) _ rfl).2 rfl
    have hl : strClaim "sub" p.sub p.subLength ∈ l ∧ strClaim "iss" p.iss p.issLength ∈ l ∧ strClaim "aud" p.aud p.audLength ∈ l ∧
        strClaim "jti" p.jti p.jtiLength ∈ l := by
      unfold registeredClaims at e1
      cases x1 : putTime (List.replicate 64 0) 0 p.iat with
      | error e => rw [x1] at e1; cases e1
      | ok y1 =>
      cases x2 : putTime y1 21 p.nbf with
      | error e => rw [x1] at e1; simp only [bind, Except.bind, x2] at e1; cases e1
      | ok y2 =>
      cases x3 : putTime y2 42 p.exp with
      | error e => rw [x1] at e1; simp only [bind, Except.bind, x2, x3] at e1; cases e1
      | ok y3 =>
      cases x4 : timeClaim "iat" y3 0 with
      | error e => rw [x1] at e1; simp only [bind, Except.bind, x2, x3, x4] at e1; cases e1
      | ok y4 =>
      cases x5 : timeClaim "nbf" y3 21 with
      | error e => rw [x1] at e1; simp only [bind, Except.bind, x2, x3, x4, x5] at e1; cases e1
      | ok y5 =>
      cases x6 : timeClaim "exp" y3 42 with
      | error e => rw [x1] at e1; simp only [bind, Except.bind, x2, x3, x4, x5, x6] at e1; cases e1
      | ok y6 =>
        rw [x1] at e1
        simp only [bind, Except.bind, x2, x3, x4, x5, x6, Except.ok.injEq] at e1
        subst e1
        simp
    intro v n hv
    simp only [List.mem_cons, Prod.mk.injEq, List.not_mem_nil, or_false] at hv
    rcases hv with ⟨rfl, rfl⟩ | ⟨rfl, rfl⟩ | ⟨rfl, rfl⟩ | ⟨rfl, rfl⟩
    · exact hmem _ _ _ hl.2.1
    · exact hmem _ _ _ hl.1
    · exact hmem _ _ _ hl.2.2.1
    · exact hmem _ _ _ hl.2.2.2
  have h0 : 0 < p.payloadClaimsCount := by
    refine Nat.pos_of_ne_zero fun h0 => hb2 ?_
    rw [h0]; intro c hc; simp at hc
  refine wp_mono (wp_any _) (fun b2 h2 _ => ?_) (fun _ h => h)
  simp only [h0, if_true, wp_bind]
  refine wp_mono (wp_any _) (fun b3 h3 _ => ?_) (fun _ h => h)
  exact wp_mono (writeClaimsIgnore_bad hs ha b3 _ _ hr.payload hb2 (fun _ _ => False)) (fun _ _ h => h.elim) (fun _ h => h)

theorem alg?_none {alg : Int} (ha : alg? alg = none) : alg < 0 ∨ 13 < alg := by
  rcases alg?_range alg with ⟨j, hj⟩ | ⟨-, h2⟩
  · have key : ∀ j : Fin 14, (alg? (j.val : Int)).isSome = true := by decide +kernel
    have := key j
    rw [← hj, ha] at this; cases this
  · exact h2

/-! ## C64 -/

/-- C64: if parameters that meet `EncDefined` are readable, encoding is defined under every schedule of allocation failures (with
`L8W8JWT_SMALL_STACK`: without them). -/
theorem C64_encode_defined_oom (hc : CryptoOk env.crypto) (hr : TextsReadable p) (hk : KeyReadable p)
    (hst : env.smallStack = false ∨ ∀ k, s.failAlloc k = false) (hd : EncDefined env p) :
    ∃ r h', encode env (some p) s h = .ok (r, h') := by
  by_cases hv : validateEncodingParams (some p) = L8W8JWT_SUCCESS
  case neg => exact ⟨_, _, C16_encode_invalid _ hv⟩
  cases ha : alg? p.alg with
  | none =>
    obtain ⟨rc, h', e, -⟩ := C19_unknown_alg (env := env) (s := s) (h := h) (p := p) (alg?_none ha)
    exact ⟨_, h', e⟩
  | some x =>
    obtain ⟨d1, d2, d3, d4⟩ := hd x.1 x.2 ha
    exact C53_encode_defined_partial hc (textsOk_iff.mpr ⟨hr, d1⟩) hk d4 hst ⟨d3, fun name sch h1 => by rw [ha] at h1; cases h1; exact d2⟩

/-- C64: for readable, valid parameters whose texts have fewer than 2^62 bytes, and without allocation failures, encoding is free of
undefined behaviour if and only if `EncDefined` holds. -/
theorem C64_encode_defined (hc : CryptoOk env.crypto) (hr : TextsReadable p) (hk : KeyReadable p)
    (hv : validateEncodingParams (some p) = L8W8JWT_SUCCESS) (g : s.good)
    (hl : ∀ name sch, alg? p.alg = some (name, sch) → (writtenHeader p name).length < 2 ^ 62 ∧ (writtenPayload p).length < 2 ^ 62) :
    (∃ r h', encode env (some p) s h = .ok (r, h')) ↔ EncDefined env p := by
  refine ⟨?_, C64_encode_defined_oom hc hr hk (Or.inr g.1)⟩
  rintro ⟨r, h', he⟩ name sch ha
  have hw : wp (encode env (some p)) s h (EncPost s h p
      (fun b => b = writtenHeader p name ∧ (env.charSigned = true → claimsAscii p.headerClaims p.headerClaimsCount))
      (fun b => b = writtenPayload p ∧ (env.charSigned = true →
        (∀ v n, (v, n) ∈ [(p.iss, p.issLength), (p.sub, p.subLength), (p.aud, p.audLength), (p.jti, p.jtiLength)] →
          ∀ b, v = some b → ∀ c ∈ arg b.mem n, c < 128) ∧ claimsAscii p.payloadClaims p.payloadClaimsCount))
      (fun _ _ => env.crypto.seedOk = true → needsPem p.alg → PemFits p)
      (fun _ _ => env.crypto.seedOk = true → needsPem p.alg → PemFits p)) (fun _ => True) := by
    refine wp_encode env p _ _ _ _ _ hv ?_ ?_ ?_ (Or.inr fun _ => trivial)
    · intro name' sch' h1 ha' pre u
      rw [ha] at ha'; cases ha'
      by_cases hx : env.charSigned = true → claimsAscii p.headerClaims p.headerClaimsCount
      · have hok : claimsOk env.charSigned p.headerClaims p.headerClaimsCount := fun l hl =>
          ⟨(hr.header l hl).1, (hr.header l hl).2.1, fun hcs => by have := hx hcs; rw [hl] at this; exact this⟩
        refine wp_mono (wp_headerText env p pre hok) ?_ (fun _ _ => trivial)
        rintro b h2 ⟨k, t, rfl, -, gt⟩
        exact ⟨k, by rw [(gt (Or.inl g.2)).2 g.1, u.2 (Or.inl g.2)]; rfl, hx⟩
      · have hcs : env.charSigned = true ∧ ¬ claimsAscii p.headerClaims p.headerClaimsCount :=
          Classical.not_imp.mp hx
        exact headerText_bad hcs.1 g.1 pre hr.header hcs.2 _
    · intro h1
      by_cases hx : env.charSigned = true →
          (∀ v n, (v, n) ∈ [(p.iss, p.issLength), (p.sub, p.subLength), (p.aud, p.audLength), (p.jti, p.jtiLength)] →
            ∀ b, v = some b → ∀ c ∈ arg b.mem n, c < 128) ∧ claimsAscii p.payloadClaims p.payloadClaimsCount
      · have hok : TextsOk env { p with headerClaims := none } :=
          textsOk_iff.mpr ⟨⟨hr.iss, hr.sub, hr.aud, hr.jti, (fun l hl => by cases hl), hr.payload⟩,
            fun hcs => ⟨(hx hcs).1, (fun c hc => by simp at hc), (hx hcs).2⟩⟩
        refine wp_mono (wp_payloadText env { p with headerClaims := none } hok) ?_ (fun _ _ => trivial)
        rintro b h2 ⟨k, -, gt⟩
        exact ⟨k, by rw [(gt (Or.inl g.2)).2 g.1]; rfl, hx⟩
      · have hcs := Classical.not_imp.mp hx
        exact payloadText_bad hcs.1 g.1 hr hcs.2 _
    · intro msg _
      by_cases hx : env.crypto.seedOk = true → needsPem p.alg → PemFits p
      · refine rwp_mono (sigOf_rc env p msg) (fun r hr => ?_) (fun _ _ => trivial)
        cases r with
        | error rc => exact ⟨hr.1, hx⟩
        | ok sig => exact hx
      · have h1 := Classical.not_imp.mp hx
        have h2 := Classical.not_imp.mp h1.2
        rw [sigOf_oob env p msg hv hk h2.1 h2.2 h1.1]
        trivial
  have hp := wp_iff_forall.mp hw r h' he
  have hne : (writtenHeader p name) ≠ [] ∧ writtenPayload p ≠ [] :=
    ⟨by simp [writtenHeader, str], by simp [writtenPayload, payloadForm, str]⟩
  have hnb : ¬ ∃ b, ((b = writtenHeader p name ∧ (env.charSigned = true → claimsAscii p.headerClaims p.headerClaimsCount)) ∨
      (b = writtenPayload p ∧ (env.charSigned = true →
        (∀ v n, (v, n) ∈ [(p.iss, p.issLength), (p.sub, p.subLength), (p.aud, p.audLength), (p.jti, p.jtiLength)] →
          ∀ b, v = some b → ∀ c ∈ arg b.mem n, c < 128) ∧ claimsAscii p.payloadClaims p.payloadClaimsCount))) ∧
      (b = [] ∨ 2 ^ 62 ≤ b.length) := by
    have := hl name sch ha
    rintro ⟨b, ⟨rfl, -⟩ | ⟨rfl, -⟩, hx | hx⟩
    · exact hne.1 hx
    · omega
    · exact hne.2 hx
    · omega
  have hnf : ¬ ∃ k, s.failAlloc k = true := by rintro ⟨k, hx⟩; rw [g.1 k] at hx; cases hx
  have hpem : env.crypto.seedOk = true → needsPem p.alg → PemFits p := by
    by_cases hrc : r.rc = L8W8JWT_SUCCESS
    · obtain ⟨-, _, _, _, _, _, _, -, -, hs, -⟩ := hp.success hrc
      exact hs
    · obtain ⟨-, -, -, hd⟩ := hp.failure hrc
      rcases hd with ⟨h1, -⟩ | hb | ⟨_, _, _, -, -, -, hs | ⟨_, hs, -⟩⟩ | ⟨hk, -⟩
      · rw [ha] at h1; cases h1
      · exact absurd hb hnb
      · exact hs
      · exact hs
      · exact absurd hk hnf
  rcases hp.fits (by rw [ha]; rfl) with ⟨hdr, pay, ⟨rfl, a1⟩, ⟨rfl, a2⟩, f1, f2⟩ | hb | hk
  · exact ⟨fun hcs => ⟨(a2 hcs).1, a1 hcs, (a2 hcs).2⟩, f1, f2, hpem⟩
  · exact absurd hb hnb
  · exact absurd hk hnf

/-- The issuer is the single byte 233 (an e with an acute accent in Latin-1), followed by a NUL. -/
def latinParams : EncParams := { toyParams with iss := some ⟨0, [233, 0]⟩ }

/-- Encoding is defined if the issuer is ASCII, and if it is not but `char` is unsigned, or the algorithm unknown. -/
example : EncDefined toy { toyParams with iss := some ⟨0, str "me" ++ [0]⟩ } ∧ EncDefined { toy with charSigned := false } latinParams ∧
    EncDefined toy { latinParams with alg := 14 } ∧ ¬ EncDefined toy latinParams := by
  refine ⟨?_, ?_, ?_, fun h => ?_⟩
  · rintro name sch ⟨⟩
    refine ⟨fun _ => ⟨?_, (fun c hc => by simp [toyParams] at hc), (fun c hc => by simp [toyParams] at hc)⟩,
      (by unfold b64Fits intMax; decide +kernel), (by unfold b64Fits intMax; decide +kernel), fun _ h => absurd h.1 (by decide)⟩
    intro v n hv b hb
    simp only [toyParams, List.mem_cons, Prod.mk.injEq, List.not_mem_nil, or_false] at hv
    rcases hv with ⟨rfl, rfl⟩ | ⟨rfl, rfl⟩ | ⟨rfl, rfl⟩ | ⟨rfl, rfl⟩ <;> cases hb
    decide
  · rintro name sch ⟨⟩
    exact ⟨(fun h => by cases h), (by unfold b64Fits intMax; decide +kernel), (by unfold b64Fits intMax; decide +kernel),
      fun _ h => absurd h.1 (by decide)⟩
  · rintro name sch ⟨⟩
  · have := (h _ _ rfl).1 rfl
    exact absurd (this.1 (some ⟨0, [233, 0]⟩) 0 (by decide) _ rfl 233 (by decide)) (by decide)

/-- An RSA key of as many bytes as the buffer has, without a terminator: undefined. -/
example : ¬ EncDefined toy { toyParams with alg := 3, secretKey := some (List.replicate 8192 65), secretKeyLength := 8192 } := by
  intro h
  have hl : ∀ n, keyBytes { toyParams with alg := 3, secretKey := some (List.replicate n 65), secretKeyLength := n } = List.replicate n 65 := by
    intro n; simp [keyBytes]
  rcases (h _ _ rfl).2.2.2 rfl ⟨by decide, by decide⟩ with h1 | h1
  · rw [hl, List.length_replicate] at h1
    exact absurd h1 (by decide)
  · rw [hl, List.getLast?_replicate] at h1
    split at h1
    · cases h1
    · cases h1

end L8w8jwt
