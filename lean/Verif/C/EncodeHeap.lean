import Verif.C.EncodeParts
import Verif.C.WriteProof
import Verif.Proofs.Base64Enc
/-!
# What the functions of src/encode.c do to the allocator, and how long the texts get
-/

namespace L8w8jwt.C
open L8w8jwt

/-- `m` leaves the live blocks as they are. -/
def Steady {α : Type} (m : M α) : Prop := ∀ s h a h', m s h = .ok (a, h') → Keeps h h'

theorem Steady.pure {α : Type} (a : α) : Steady (pure a : M α) := by
  rintro s h x h' hr
  cases hr
  exact ⟨rfl, Nat.le_refl _⟩

theorem Steady.lift {α : Type} (x : Res α) : Steady (M.lift x) := by
  rintro s h a h' hr
  obtain ⟨_, rfl⟩ := M.lift_inv hr
  exact ⟨rfl, Nat.le_refl _⟩

theorem Keeps.trans' {h1 h2 h3 : Heap} (a : Keeps h1 h2) (b : Keeps h2 h3) : Keeps h1 h3 := ⟨b.1.trans a.1, Nat.le_trans a.2 b.2⟩

theorem Steady.bind {α β : Type} {m : M α} {f : α → M β} (h1 : Steady m) (h2 : ∀ a, Steady (f a)) : Steady (m >>= f) := by
  rintro s h a h' hr
  obtain ⟨x, g, e1, e2⟩ := M.bind_inv hr
  exact Keeps.trans' (h1 _ _ _ _ e1) (h2 _ _ _ _ _ e2)

theorem Steady.liftBind {α β : Type} {x : Res α} {f : α → M β} (h2 : ∀ a, Steady (f a)) : Steady (M.lift x >>= f) := Steady.bind (Steady.lift x) h2

theorem Steady.push {α : Type} (cap : Nat) (buf es : List α) : Steady (push cap buf es) := by
  rintro s h a h' hr
  unfold L8w8jwt.push at hr
  split at hr <;> cases hr <;> exact ⟨rfl, by simp⟩

theorem Steady.ite {α : Type} {c : Prop} [Decidable c] {a b : M α} (h1 : Steady a) (h2 : Steady b) : Steady (if c then a else b) := by
  split
  · exact h1
  · exact h2

theorem steady_escapeLoop (cs : Bool) : ∀ (t buf : Bytes), Steady (escapeLoop cs buf t)
  | [], _ => Steady.pure _
  | _ :: t, _ => Steady.liftBind fun _ => Steady.bind (Steady.push _ _ _) fun _ => steady_escapeLoop cs t _

theorem steady_escape (cs : Bool) (p : Ptr) (n : Nat) : Steady (escapeClaimString cs p n) :=
  Steady.liftBind fun _ => Steady.liftBind fun _ => steady_escapeLoop _ _ _

theorem steady_writeClaim (cap : Nat) (cs : Bool) (buf : Bytes) (first : Bool) (c : Claim) : Steady (writeClaim cap cs buf first c) := by
  unfold writeClaim
  split
  · exact Steady.pure _
  · refine Steady.bind (Steady.ite (Steady.pure _) (Steady.push _ _ _)) fun _ => Steady.liftBind fun _ => Steady.liftBind fun _ =>
      Steady.bind (steady_escape _ _ _) fun _ => Steady.bind (Steady.push _ _ _) fun _ => Steady.bind (Steady.push _ _ _) fun _ =>
      Steady.bind (Steady.push _ _ _) fun _ => Steady.ite ?_ ?_
    · exact Steady.bind (Steady.push _ _ _) fun _ => Steady.bind (steady_escape _ _ _) fun _ => Steady.bind (Steady.push _ _ _) fun _ =>
        Steady.bind (Steady.push _ _ _) fun _ => Steady.pure _
    · exact Steady.liftBind fun _ => Steady.liftBind fun _ => Steady.bind (Steady.push _ _ _) fun _ => Steady.pure _

theorem steady_writeClaimsLoop (cap : Nat) (cs : Bool) : ∀ (l : List Claim) (buf : Bytes) (first : Bool), Steady (writeClaimsLoop cap cs buf first l)
  | [], _, _ => Steady.pure _
  | _ :: t, _, _ => Steady.bind (steady_writeClaim _ _ _ _ _) fun _ => steady_writeClaimsLoop cap cs t _ _

theorem steady_writeClaims (cap : Nat) (cs : Bool) (b : Option Bytes) (l : Option (List Claim)) (n : Nat) : Steady (writeClaims cap cs b l n) := by
  unfold writeClaims
  split
  · refine Steady.ite (Steady.pure _) ?_
    rintro s h a h' hr
    obtain ⟨p, h1, e1, hr⟩ := M.bind_inv hr
    unfold alloc at e1
    split at e1
    · cases e1
      cases hr
      exact ⟨rfl, by simp⟩
    · cases e1
      obtain ⟨x, _, hr⟩ := M.liftBind_inv hr
      obtain ⟨y, h2, e2, hr⟩ := M.bind_inv hr
      obtain ⟨z, h3, e3, hr⟩ := M.bind_inv hr
      cases hr
      have k := steady_writeClaimsLoop _ _ _ _ _ _ _ _ _ e2
      simp only [free, k.1, List.mem_cons, true_or, if_true] at e3
      cases e3
      have := k.2
      simp only at this
      exact ⟨by simp, by simp; omega⟩
  · exact Steady.pure _

theorem steady_ignore (env : Env) (buf : Bytes) (l : Option (List Claim)) (n : Nat) : Steady (writeClaimsIgnore env buf l n) :=
  Steady.bind (steady_writeClaims _ _ _ _ _) fun _ => Steady.pure _

/-! ## Lengths -/

theorem push_length {cap : Nat} {buf xs buf' : Bytes} {s : Sched} {h h' : Heap} (hr : push cap buf xs s h = .ok (buf', h')) :
    buf'.length ≤ buf.length + xs.length := by
  rw [push_eq] at hr
  cases hr
  simp
  omega

/-- A bound on the length of the text of a claim. -/
def claimBytes (c : Claim) : Nat := 8 + 6 * (c.key.bytes.getD []).length + 6 * (c.value.bytes.getD []).length

/-- A bound on the length of the text of claims. -/
def claimsBytes (l : Option (List Claim)) : Nat := ((l.getD []).map claimBytes).sum

theorem escape_length {cs : Bool} {p : Ptr} {n : Nat} {r : Bytes} {s : Sched} {h h' : Heap} (hr : escapeClaimString cs p n s h = .ok (r, h')) :
    r.length ≤ 6 * (p.bytes.getD []).length := by
  simp only [escapeClaimString] at hr
  obtain ⟨m, e1, hr⟩ := M.liftBind_inv hr
  obtain ⟨x, e2, hr⟩ := M.liftBind_inv hr
  obtain ⟨e3, rfl⟩ := rdN_inv e2
  have := escapeLoop_length hr
  cases hp : p.bytes with
  | none => rw [hp] at e1; cases e1
  | some y =>
    rw [hp] at e1
    cases e1
    simp at this ⊢
    omega

theorem str_length1 : (str ",").length = 1 ∧ (str "\"").length = 1 ∧ (str "\":").length = 2 ∧ (str "}").length = 1 ∧ (str "{").length = 1 := by decide

theorem writeClaim_length {cap : Nat} {cs : Bool} {buf : Bytes} {first : Bool} {c : Claim} {s : Sched} {h h' : Heap} {r : Bytes × Bool}
    (hr : writeClaim cap cs buf first c s h = .ok (r, h')) : r.1.length ≤ buf.length + claimBytes c := by
  obtain ⟨l1, l2, l3, -⟩ := str_length1
  cases hk : c.key with
  | none =>
    simp only [writeClaim, hk] at hr
    cases hr
    simp
  | some k =>
    simp only [writeClaim, hk] at hr
    obtain ⟨b1, _, e1, hr⟩ := M.bind_inv hr
    obtain ⟨_, _, hr⟩ := M.liftBind_inv hr
    obtain ⟨vl, _, hr⟩ := M.liftBind_inv hr
    obtain ⟨x, _, e2, hr⟩ := M.bind_inv hr
    obtain ⟨b2, _, e3, hr⟩ := M.bind_inv hr
    obtain ⟨b3, _, e4, hr⟩ := M.bind_inv hr
    obtain ⟨b4, _, e5, hr⟩ := M.bind_inv hr
    have k1 : b1.length ≤ buf.length + 1 := by
      split at e1
      · cases e1; omega
      · have := push_length e1; omega
    have k2 := escape_length e2
    have k3 := push_length e3
    have k4 := push_length e4
    have k5 := push_length e5
    rw [← hk] at k2
    unfold claimBytes
    split at hr
    · obtain ⟨b5, _, e6, hr⟩ := M.bind_inv hr
      obtain ⟨y, _, e7, hr⟩ := M.bind_inv hr
      obtain ⟨b6, _, e8, hr⟩ := M.bind_inv hr
      obtain ⟨b7, _, e9, hr⟩ := M.bind_inv hr
      cases hr
      have k6 := push_length e6
      have k7 := escape_length e7
      have k8 := push_length e8
      have k9 := push_length e9
      simp only
      omega
    · obtain ⟨m, e6, hr⟩ := M.liftBind_inv hr
      obtain ⟨v, e7, hr⟩ := M.liftBind_inv hr
      obtain ⟨b5, _, e8, hr⟩ := M.bind_inv hr
      cases hr
      obtain ⟨e9, rfl⟩ := rdN_inv e7
      have k6 := push_length e8
      cases hp : c.value.bytes with
      | none => rw [hp] at e6; cases e6
      | some y =>
        rw [hp] at e6
        cases e6
        simp at k6 ⊢
        omega

theorem writeClaimsLoop_length {cap : Nat} {cs : Bool} {l : List Claim} {buf r : Bytes} {first : Bool} {s : Sched} {h h' : Heap}
    (hr : writeClaimsLoop cap cs buf first l s h = .ok (r, h')) : r.length ≤ buf.length + (l.map claimBytes).sum := by
  induction l generalizing buf first h with
  | nil => cases hr; simp
  | cons c t ih =>
    simp only [writeClaimsLoop] at hr
    obtain ⟨x, _, e1, hr⟩ := M.bind_inv hr
    have := writeClaim_length e1
    have := ih hr
    simp only [List.map_cons, List.sum_cons]
    omega

theorem sum_take_le (l : List Nat) (n : Nat) : (l.take n).sum ≤ l.sum := by
  induction l generalizing n with
  | nil => simp
  | cons a t ih => cases n with
    | zero => simp
    | succ n => have := ih n; simp only [List.take_succ_cons, List.sum_cons]; omega

theorem ignore_length {env : Env} {buf r : Bytes} {l : Option (List Claim)} {n : Nat} {s : Sched} {h h' : Heap}
    (hr : writeClaimsIgnore env buf l n s h = .ok (r, h')) : r.length ≤ buf.length + claimsBytes l := by
  simp only [writeClaimsIgnore] at hr
  obtain ⟨x, _, e1, hr⟩ := M.bind_inv hr
  cases hr
  cases l with
  | some cs =>
    simp only [writeClaims] at e1
    split at e1
    · cases e1; simp
    · obtain ⟨p, _, e2, e1⟩ := M.bind_inv e1
      split at e1
      · cases e1; simp
      · obtain ⟨y, e3, e1⟩ := M.liftBind_inv e1
        obtain ⟨z, _, e4, e1⟩ := M.bind_inv e1
        obtain ⟨_, _, e5, e1⟩ := M.bind_inv e1
        cases e1
        obtain ⟨_, rfl⟩ := rdN_inv e3
        have k := writeClaimsLoop_length e4
        have k2 := sum_take_le (cs.map claimBytes) n
        rw [← List.map_take] at k2
        simp only [claimsBytes, Option.getD_some]
        omega
  | none => cases e1; simp

theorem claimBytes_le {c : Claim} {l : List Claim} (h : c ∈ l) : claimBytes c ≤ (l.map claimBytes).sum := by
  induction l with
  | nil => cases h
  | cons a t ih =>
    simp only [List.map_cons, List.sum_cons]
    rcases List.mem_cons.mp h with rfl | h
    · omega
    · have := ih h; omega

/-- A bound on the lengths of header and payload. -/
def encBytes (p : EncParams) : Nat :=
  10000 + 6 * ((p.iss.bytes.getD []).length + (p.sub.bytes.getD []).length + (p.aud.bytes.getD []).length + (p.jti.bytes.getD []).length) +
    claimsBytes p.headerClaims + claimsBytes p.payloadClaims

/-- Strings and claims are small enough. -/
structure Fits (fuel : Nat) (p : EncParams) : Prop where
  bytes : encBytes p < fuel
  size : 8 * encBytes p < 18446744073709551616
  hc : p.headerClaimsCount < fuel
  pc : p.payloadClaimsCount < fuel

theorem headerText_length {env : Env} {p : EncParams} {buf r : Bytes} {s : Sched} {h h' : Heap}
    (hr : headerText env p buf s h = .ok (r, h')) : r.length ≤ buf.length + 2 + claimsBytes p.headerClaims := by
  obtain ⟨l1, l2, l3, l4, l5⟩ := str_length1
  simp only [headerText] at hr
  obtain ⟨x, _, e1, hr⟩ := M.bind_inv hr
  have := push_length hr
  split at e1
  · obtain ⟨y, _, e2, e1⟩ := M.bind_inv e1
    have := push_length e2
    have := ignore_length e1
    omega
  · cases e1
    omega

theorem steady_headerText (env : Env) (p : EncParams) (buf : Bytes) : Steady (headerText env p buf) :=
  Steady.bind (Steady.ite (Steady.bind (Steady.push _ _ _) fun _ => steady_ignore _ _ _ _) (Steady.pure _)) fun _ => Steady.push _ _ _

theorem steady_payloadText (env : Env) (p : EncParams) : Steady (payloadText env p) :=
  Steady.liftBind fun _ => Steady.bind (Steady.push _ _ _) fun _ => Steady.bind (steady_ignore _ _ _ _) fun _ =>
    Steady.bind (Steady.ite (Steady.bind (Steady.ite (Steady.push _ _ _) (Steady.pure _)) fun _ => steady_ignore _ _ _ _) (Steady.pure _))
      fun _ => Steady.push _ _ _

theorem putTime_length {buf r : Bytes} {off : Nat} {t : Int} (h : putTime buf off t = .ok r) : r.length = buf.length := by
  unfold putTime wrAt at h
  split at h
  · split at h
    · cases h; simp; omega
    · cases h
  · cases h; rfl

theorem lit_len (b : Bool) (k : String) : ((if b then lit k else none : Ptr).bytes.getD []).length ≤ (str k).length + 1 := by
  cases b <;> simp [lit, Ptr.bytes]

theorem timeClaim_bytes {k : String} {buf : Bytes} {off : Nat} {c : Claim} (h : timeClaim k buf off = .ok c) (hb : buf.length = 64)
    (hk : (str k).length = 3) : claimBytes c ≤ 416 := by
  unfold timeClaim at h
  cases e : rd buf off with
  | error => rw [e] at h; cases h
  | ok b =>
    rw [e] at h
    cases h
    have := lit_len (decide (b ≠ 0)) k
    simp only [decide_eq_true_eq] at this
    simp only [claimBytes]
    have h2 : ((Ptr.bytes (Option.some ⟨0, buf.drop off⟩)).getD []).length ≤ 64 := by
      simp only [Ptr.bytes, Option.map_some, Option.getD_some, List.length_drop]
      omega
    omega

theorem strClaim_bytes {k : String} {v : Ptr} {n : Nat} (hk : (str k).length = 3) :
    claimBytes (strClaim k v n) ≤ 32 + 6 * (v.bytes.getD []).length := by
  have := lit_len v.isSome k
  simp only [claimBytes, strClaim]
  omega

theorem registered_inv {p : EncParams} {l : List Claim} (h : registeredClaims p = .ok l) :
    ∃ b1 b2 b3 c1 c2 c3, putTime (List.replicate 64 0) 0 p.iat = .ok b1 ∧ putTime b1 21 p.nbf = .ok b2 ∧ putTime b2 42 p.exp = .ok b3 ∧
      timeClaim "iat" b3 0 = .ok c1 ∧ timeClaim "nbf" b3 21 = .ok c2 ∧ timeClaim "exp" b3 42 = .ok c3 ∧
      l = [c1, c2, c3, strClaim "sub" p.sub p.subLength, strClaim "iss" p.iss p.issLength, strClaim "aud" p.aud p.audLength,
        strClaim "jti" p.jti p.jtiLength] := by
  unfold registeredClaims at h
  obtain ⟨b1, e1, h⟩ := res_inv h
  obtain ⟨b2, e2, h⟩ := res_inv h
  obtain ⟨b3, e3, h⟩ := res_inv h
  obtain ⟨c1, e4, h⟩ := res_inv h
  obtain ⟨c2, e5, h⟩ := res_inv h
  obtain ⟨c3, e6, h⟩ := res_inv h
  cases h
  exact ⟨b1, b2, b3, c1, c2, c3, e1, e2, e3, e4, e5, e6, rfl⟩

theorem registered_bytes {p : EncParams} {l : List Claim} (h : registeredClaims p = .ok l) :
    claimsBytes (some l) + claimsBytes p.headerClaims + claimsBytes p.payloadClaims + 8600 ≤ encBytes p := by
  obtain ⟨b1, b2, b3, c1, c2, c3, e1, e2, e3, e4, e5, e6, rfl⟩ := registered_inv h
  have hl : b3.length = 64 := by
    rw [putTime_length e3, putTime_length e2, putTime_length e1]; simp
  have k1 := timeClaim_bytes e4 hl (by decide)
  have k2 := timeClaim_bytes e5 hl (by decide)
  have k3 := timeClaim_bytes e6 hl (by decide)
  have k4 := strClaim_bytes (k := "sub") (v := p.sub) (n := p.subLength) (by decide)
  have k5 := strClaim_bytes (k := "iss") (v := p.iss) (n := p.issLength) (by decide)
  have k6 := strClaim_bytes (k := "aud") (v := p.aud) (n := p.audLength) (by decide)
  have k7 := strClaim_bytes (k := "jti") (v := p.jti) (n := p.jtiLength) (by decide)
  unfold encBytes
  simp only [claimsBytes, Option.getD_some, List.map_cons, List.map_nil, List.sum_cons, List.sum_nil]
  omega

theorem payloadText_length {env : Env} {p : EncParams} {r : Bytes} {s : Sched} {h h' : Heap}
    (hr : payloadText env p s h = .ok (r, h')) : r.length ≤ encBytes p := by
  obtain ⟨l1, l2, l3, l4, l5⟩ := str_length1
  simp only [payloadText] at hr
  obtain ⟨l, e0, hr⟩ := M.liftBind_inv hr
  obtain ⟨b1, _, e1, hr⟩ := M.bind_inv hr
  obtain ⟨b2, _, e2, hr⟩ := M.bind_inv hr
  obtain ⟨b3, _, e3, hr⟩ := M.bind_inv hr
  have k0 := registered_bytes e0
  have k1 := push_length e1
  have k2 := ignore_length e2
  have k4 := push_length hr
  simp only [List.length_nil] at k1
  have k3 : b3.length ≤ b2.length + 1 + claimsBytes p.payloadClaims := by
    split at e3
    · obtain ⟨b4, _, e4, e3⟩ := M.bind_inv e3
      have := ignore_length e3
      split at e4
      · have := push_length e4
        omega
      · cases e4; omega
    · cases e3; omega
  omega

/-! ## The outcomes of the base64 encoder -/

theorem b64_inv {buf : Bytes} {s : Sched} {h h' : Heap} {o : BufOut} (hn : buf.length < 2 ^ 62)
    (hr : base64Encode true (some buf) buf.length false false s h = .ok (o, h')) :
    (o.rc ≠ 0 ∧ o.len = none ∧ (o.out = none ∨ o.out = some none) ∧ Keeps h h') ∨
    (∃ m len, o = ⟨0, some (some ⟨h.tick, m⟩), some len⟩ ∧ h' = { tick := h.tick + 1, live := h.tick :: h.live } ∧
      m.length ≤ b64OutSize buf.length ∧ len ≤ m.length ∧ m.length ≤ 2 * buf.length + 4) := by
  by_cases h0 : buf.length = 0
  · left
    unfold base64Encode at hr
    simp only [Bool.or_self, Bool.false_eq_true, if_false, h0, if_true] at hr
    cases hr
    exact ⟨by decide, rfl, .inl rfl, rfl, Nat.le_refl _⟩
  by_cases hu : 4 * ((buf.length + 2) / 3) ≤ intMax
  · rw [base64Encode_eq true buf buf.length s h (Nat.le_refl _) h0 hn (fun _ => hu)] at hr
    split at hr
    · cases hr
      exact .inl ⟨by decide, rfl, .inr rfl, rfl, Nat.le_succ _⟩
    · cases hr
      right
      refine ⟨_, _, rfl, rfl, ?_, ?_, ?_⟩
      · rw [encMem_length]
        have := outSize_ge buf.length hn true
        simpa using this
      · simp [L8w8jwt.encMem]
      · rw [encMem_length]
        simp only [List.take_length, if_true]
        omega
  · unfold base64Encode at hr
    have hov : ¬ b64OutSize buf.length < buf.length := by rw [outSize_lt_iff _ (by omega)]; omega
    simp only [Bool.or_self, Bool.false_eq_true, if_false, h0, hov] at hr
    obtain ⟨x, h1, e1, hr⟩ := M.bind_inv hr
    unfold alloc at e1
    split at e1
    · cases e1
      cases hr
      exact .inl ⟨by decide, rfl, .inr rfl, rfl, Nat.le_succ _⟩
    · cases e1
      obtain ⟨y, e2, hr⟩ := M.liftBind_inv hr
      obtain ⟨_, rfl⟩ := rdN_inv e2
      obtain ⟨z, e3, hr⟩ := M.liftBind_inv hr
      rw [List.take_length, encBody_overflow _ (by omega)] at e3
      cases e3

/-- Only the first `n` bytes matter. -/
theorem b64_take (url : Bool) (m : Bytes) (n : Nat) (hn : n ≤ m.length) (a b : Bool) (s : Sched) (h : Heap) :
    base64Encode url (some m) n a b s h = base64Encode url (some (m.take n)) n a b s h := by
  simp only [base64Encode, rdN, hn, List.length_take, Nat.min_eq_left hn, if_true, List.take_take, Nat.min_self, Nat.le_refl]

end L8w8jwt.C
