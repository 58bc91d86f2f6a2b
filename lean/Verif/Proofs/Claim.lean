import Verif.Model.Claim
import Verif.Spec.Claim
import Verif.Proofs.Hoare
import Verif.Proofs.Json
/-!
# write_claims
-/

namespace L8w8jwt
open Spec

theorem strlen_eq (mem : Bytes) (h : 0 ∈ mem) : strlen mem = .ok (cString mem).length := by
  induction mem with
  | nil => simp at h
  | cons b t ih =>
    by_cases hb : b = 0
    · subst hb; simp [strlen, cString]
    · have ht : 0 ∈ t := by simpa [Ne.symm hb] using h
      simp [strlen, hb, ih ht, cString, bind, Except.bind]

theorem strlen_error (mem : Bytes) (h : 0 ∉ mem) : strlen mem = .error .oobRead := by
  induction mem with
  | nil => rfl
  | cons b t ih =>
    simp only [List.mem_cons, not_or] at h
    simp [strlen, Ne.symm h.1, ih h.2, bind, Except.bind]

theorem cString_length_le (mem : Bytes) : (cString mem).length ≤ mem.length := by
  unfold cString; exact (List.takeWhile_sublist _).length_le

theorem take_cString (mem : Bytes) : mem.take (cString mem).length = cString mem := by
  unfold cString
  have := List.prefix_iff_eq_take.mp (List.takeWhile_prefix (fun x : UInt8 => x != 0) (l := mem))
  exact this.symm

theorem lenOrStrlen_eq (i : Nat) (mem : Bytes) (n : Nat) (h : argOk mem n) :
    lenOrStrlen (some ⟨i, mem⟩) n = .ok (arg mem n).length ∧ (arg mem n).length ≤ mem.length ∧
      mem.take (arg mem n).length = arg mem n := by
  unfold argOk arg at *
  by_cases h0 : n = 0
  · simp only [h0, if_true] at *
    refine ⟨?_, cString_length_le mem, take_cString mem⟩
    simp [lenOrStrlen, Ptr.bytes, deref, strlen_eq mem h, bind, Except.bind]
  · rw [if_neg h0] at h
    rw [if_neg h0]
    exact ⟨by simp [lenOrStrlen, h0, h], by simp; omega, by simp [h]⟩

variable {cap : Nat} {s : Sched} {h : Heap}

theorem wp_escapeLoop (cs : Bool) (buf txt : Bytes) (ha : cs = true → ∀ c ∈ txt, c < 128) :
    wp (escapeLoop cs buf txt) s h (fun r h' => Keeps h h' ∧ ∃ t, r = buf ++ t ∧ Upto s 256 buf.length t (escape txt)) (fun _ => False) := by
  induction txt generalizing buf h with
  | nil => exact ⟨Keeps.refl _, [], by simp [escape, Upto.refl]⟩
  | cons c t ih =>
    simp only [escapeLoop, wp_bind, wp_lift]
    rw [escapeChar_eq cs c (fun h => ha h c (by simp))]
    simp only [rwp_ok]
    refine wp_push' _ _ _ _ fun ys hy => ?_
    refine wp_mono (ih _ (fun h x hx => ha h x (by simp [hx]))) ?_ (fun _ h => h)
    rintro r h' ⟨hk, t', rfl, hr⟩
    exact ⟨(Keeps.tick h).trans hk, ys ++ t', by simp, hy.append hr (by simp only [List.length_append]; omega)⟩

theorem wp_escapeClaimString (cs : Bool) (i : Nat) (mem : Bytes) (n : Nat) (hok : argOk mem n)
    (ha : cs = true → ∀ c ∈ arg mem n, c < 128) :
    wp (escapeClaimString cs (some ⟨i, mem⟩) (arg mem n).length) s h
      (fun r h' => Keeps h h' ∧ Upto s 256 0 r (escape (arg mem n))) (fun _ => False) := by
  obtain ⟨_, h2, h3⟩ := lenOrStrlen_eq i mem n hok
  simp only [escapeClaimString, wp_bind, wp_lift, Ptr.bytes, Option.map_some, deref, rwp_ok, rdN, h2, if_true, h3]
  refine wp_mono (wp_escapeLoop cs [] _ ha) ?_ (fun _ h => h)
  rintro r h' ⟨hk, t, rfl, hu⟩
  exact ⟨hk, hu⟩

theorem wp_writeClaim (cs : Bool) (buf : Bytes) (first : Bool) (c : Claim) (m : Member)
    (hm : member c = some m) (hok : m.ok) (ha : cs = true → m.ascii) :
    wp (writeClaim cap cs buf first c) s h
      (fun r h' => Keeps h h' ∧ r.2 = false ∧ ∃ t, r.1 = buf ++ t ∧ Upto s (min cap 256) buf.length t ((if first then [] else str ",") ++ m.text))
      (fun _ => False) := by
  obtain ⟨key, keyLength, value, valueLength, type⟩ := c
  cases key with
  | none => simp [member] at hm
  | some k =>
    cases value with
    | none => simp [member] at hm
    | some v =>
      obtain ⟨ki, k⟩ := k
      obtain ⟨vi, v⟩ := v
      simp only [member, Option.some.injEq] at hm
      subst hm
      simp only [Member.ok, Member.ascii] at hok ha
      obtain ⟨k1, k2, k3⟩ := lenOrStrlen_eq ki k keyLength hok.1
      obtain ⟨v1, v2, v3⟩ := lenOrStrlen_eq vi v valueLength hok.2
      simp only [writeClaim, wp_bind, wp_lift, k1, v1, rwp_ok]
      have hpre : ∀ (Q : Bytes → Heap → Prop), (∀ t h', Keeps h h' →
            Upto s (min cap 256) buf.length t (if first then [] else str ",") → Q (buf ++ t) h') →
          wp (if first = true then pure buf else push cap buf (str ",")) s h Q (fun _ => False) := by
        intro Q hQ
        cases first with
        | true => simpa using hQ [] h (Keeps.refl h) (by simp [Upto.refl])
        | false =>
          simp only [Bool.false_eq_true, if_false]
          refine wp_push' _ _ _ _ fun j hj => ?_
          exact hQ _ _ (Keeps.tick h) (by simpa using hj.weaken (Nat.min_le_left _ _))
      apply hpre
      intro t0 h1 hk1 hb
      refine wp_mono (wp_escapeClaimString cs ki k keyLength hok.1 (fun h => (ha h).1)) ?_ (fun _ h => h)
      rintro e h2 ⟨hk2, he⟩
      refine wp_push' _ _ _ _ fun t1 u1 => wp_push' _ _ _ _ fun t2 u2 => wp_push' _ _ _ _ fun t3 u3 => ?_
      have w := Nat.min_le_left cap 256
      have u1 := u1.weaken w
      have u2 := (u2.weaken w).trans he (by omega)
      have u3 := u3.weaken w
      have kk : Keeps h { tick := h2.tick + 1 + 1 + 1, live := h2.live } :=
        (hk1.trans hk2).trans ⟨rfl, by show h2.tick ≤ h2.tick + 1 + 1 + 1; omega⟩
      by_cases ht : type = L8W8JWT_CLAIM_TYPE_STRING
      · simp only [ht, if_true, wp_bind]
        refine wp_push' _ _ _ _ fun t4 u4 => ?_
        refine wp_mono (wp_escapeClaimString cs vi v valueLength hok.2 (fun h => (ha h).2 (by simp [ht]))) ?_ (fun _ h => h)
        rintro e2 h3 ⟨hk3, he2⟩
        refine wp_push' _ _ _ _ fun t5 u5 => wp_push' _ _ _ _ fun t6 u6 => ?_
        refine ⟨(kk.trans (Keeps.tick _)).trans (hk3.trans ((Keeps.tick _).trans (Keeps.tick _))), rfl,
          t0 ++ (t1 ++ t2 ++ t3 ++ (t4 ++ t5 ++ t6)), by simp, ?_⟩
        simp only [Member.text, decide_true, if_true]
        have u4 := u4.weaken w
        have u5 := (u5.weaken w).trans he2 (by omega)
        have u6 := u6.weaken w
        exact hb.append (((u1.append u2 (by simp only [List.length_append]; omega)).append u3 (by simp only [List.length_append]; omega)).append
          ((u4.append u5 (by simp only [List.length_append]; omega)).append u6 (by simp only [List.length_append]; omega)) (by simp only [List.length_append]; omega)) (by simp only [List.length_append]; omega)
      · simp only [ht, if_false, wp_bind, wp_lift, Ptr.bytes, Option.map_some, deref, rwp_ok, rdN, v2, if_true, v3]
        refine wp_push' _ _ _ _ fun t4 u4 => ?_
        refine ⟨kk.trans (Keeps.tick _), rfl, t0 ++ (t1 ++ t2 ++ t3 ++ t4), by simp, ?_⟩
        simp only [Member.text, decide_false, Bool.false_eq_true, if_false]
        exact hb.append (((u1.append u2 (by simp only [List.length_append]; omega)).append u3 (by simp only [List.length_append]; omega)).append (u4.weaken w) (by simp only [List.length_append]; omega)) (by simp only [List.length_append]; omega)

/-- The remaining members, with a comma before each unless it is the first. -/
def restText (first : Bool) (l : List Bytes) : Bytes := if first then commaSep l else l.flatMap (str "," ++ ·)

theorem commaSep_cons (x : Bytes) (l : List Bytes) : commaSep (x :: l) = x ++ l.flatMap (str "," ++ ·) := by
  induction l generalizing x with
  | nil => simp [commaSep]
  | cons y t ih => rw [commaSep, ih]; simp

theorem wp_writeClaimsLoop (cs : Bool) (buf : Bytes) (first : Bool) (l : List Claim)
    (hok : ∀ c ∈ l, claimOk c) (ha : cs = true → ∀ c ∈ l, ∀ m, member c = some m → m.ascii) :
    wp (writeClaimsLoop cap cs buf first l) s h
      (fun r h' => Keeps h h' ∧ ∃ t, r = buf ++ t ∧ Upto s (min cap 256) buf.length t (restText first (memberTexts l))) (fun _ => False) := by
  induction l generalizing buf first h with
  | nil => exact ⟨Keeps.refl _, [], by simp, by cases first <;> simp [memberTexts, restText, commaSep, Upto.refl]⟩
  | cons c t ih =>
    have iht := fun buf first h => ih (buf := buf) (first := first) (h := h) (fun c hc => hok c (by simp [hc]))
      (fun h c hc => ha h c (by simp [hc]))
    simp only [writeClaimsLoop, wp_bind]
    rcases hok c (by simp) with hk | ⟨m, hm, hmok⟩
    · have : member c = none := by simp [member, hk]
      simp only [writeClaim, hk, wp_pure]
      refine wp_mono (iht buf first h) ?_ (fun _ h => h)
      rintro r h' ⟨hl, t', rfl, hr⟩
      exact ⟨hl, t', rfl, by simpa [memberTexts, this] using hr⟩
    · refine wp_mono (wp_writeClaim cs buf first c m hm hmok (fun h => ha h c (by simp) m hm)) ?_ (fun _ h => h)
      rintro ⟨b, f⟩ h1 ⟨hk1, hf, t1, he, u1⟩
      simp only at hf he
      subst hf he
      refine wp_mono (iht _ _ h1) ?_ (fun _ h => h)
      rintro r h' ⟨hk, t2, rfl, u2⟩
      refine ⟨hk1.trans hk, t1 ++ t2, by simp, ?_⟩
      have := u1.append u2 (by simp only [List.length_append]; omega)
      cases first with
      | true => simpa [memberTexts, hm, restText, commaSep_cons] using this
      | false => simpa [memberTexts, hm, restText] using this

/-- `l8w8jwt_write_claims` under any schedule. -/
theorem wp_writeClaims (cs : Bool) (buf : Bytes) (claims : List Claim) (n : Nat) (hn : n ≤ claims.length) (h0 : n ≠ 0)
    (hok : ∀ c ∈ claims.take n, claimOk c)
    (ha : cs = true → ∀ c ∈ claims.take n, ∀ m, member c = some m → m.ascii) :
    wp (writeClaims cap cs (some buf) (some claims) n) s h (fun r h' => Keeps h h' ∧
      ((r.1 = L8W8JWT_SUCCESS ∧ ∃ t, r.2 = some (buf ++ t) ∧ Upto s (min cap 256) buf.length t (commaSep (memberTexts (claims.take n)))) ∨
       (r.1 = L8W8JWT_OUT_OF_MEM ∧ r.2 = some buf ∧ s.failAlloc h.tick = true))) (fun _ => False) := by
  simp only [writeClaims, h0, if_false, wp_bind, wp_alloc]
  refine ⟨fun hf => ?_, fun hf => ?_⟩
  · exact ⟨Keeps.tick h, Or.inr ⟨rfl, rfl, hf⟩⟩
  · simp only [wp_lift, rdN, hn, if_true, rwp_ok]
    refine wp_mono (wp_writeClaimsLoop cs buf true (claims.take n) hok ha) ?_ (fun _ h => h)
    rintro r h1 ⟨hk, t, rfl, hr⟩
    apply wp_free_some
    · simp [hk.1]
    · refine ⟨⟨by simp [hk.1], ?_⟩, Or.inl ⟨rfl, t, rfl, hr⟩⟩
      have := hk.2
      simp only at this ⊢
      omega

theorem keeps_escapeLoop (cs : Bool) (buf txt : Bytes) : KeepsM (escapeLoop cs buf txt) := by
  induction txt generalizing buf with
  | nil => exact KeepsM.pure _
  | cons c t ih => exact KeepsM.bind (KeepsM.lift _) fun e => KeepsM.bind (KeepsM.push _ _) fun b => ih b

theorem keeps_escapeClaimString (cs : Bool) (p : Ptr) (n : Nat) : KeepsM (escapeClaimString cs p n) :=
  KeepsM.bind (KeepsM.lift _) fun _ => KeepsM.bind (KeepsM.lift _) fun _ => keeps_escapeLoop _ _ _

theorem keeps_writeClaim (cs : Bool) (buf : Bytes) (first : Bool) (c : Claim) : KeepsM (writeClaim cap cs buf first c) := by
  unfold writeClaim
  split
  · exact KeepsM.pure _
  · refine KeepsM.bind (KeepsM.ite (KeepsM.pure _) (KeepsM.push _ _)) fun _ => KeepsM.bind (KeepsM.lift _) fun _ =>
      KeepsM.bind (KeepsM.lift _) fun _ => KeepsM.bind (keeps_escapeClaimString _ _ _) fun _ =>
      KeepsM.bind (KeepsM.push _ _) fun _ => KeepsM.bind (KeepsM.push _ _) fun _ => KeepsM.bind (KeepsM.push _ _) fun _ =>
      KeepsM.ite ?_ ?_
    · exact KeepsM.bind (KeepsM.push _ _) fun _ => KeepsM.bind (keeps_escapeClaimString _ _ _) fun _ =>
        KeepsM.bind (KeepsM.push _ _) fun _ => KeepsM.bind (KeepsM.push _ _) fun _ => KeepsM.pure _
    · exact KeepsM.bind (KeepsM.lift _) fun _ => KeepsM.bind (KeepsM.lift _) fun _ =>
        KeepsM.bind (KeepsM.push _ _) fun _ => KeepsM.pure _

theorem keeps_writeClaimsLoop (cs : Bool) (buf : Bytes) (first : Bool) (l : List Claim) :
    KeepsM (writeClaimsLoop cap cs buf first l) := by
  induction l generalizing buf first with
  | nil => exact KeepsM.pure _
  | cons c t ih => exact KeepsM.bind (keeps_writeClaim _ _ _ _) fun _ => ih _ _

theorem keeps_writeClaims (cs : Bool) (b : Option Bytes) (claims : Option (List Claim)) (n : Nat) :
    KeepsM (writeClaims cap cs b claims n) := by
  unfold writeClaims
  split
  · refine KeepsM.ite (KeepsM.pure _) fun s h => ?_
    simp only [wp_bind, wp_alloc]
    refine ⟨fun hf => Keeps.tick h, fun hf => ?_⟩
    simp only [wp_lift]
    refine rwp_mono (Q := fun _ => True) (E := fun _ => True) (by unfold rwp; split <;> trivial) (fun a _ => ?_) (fun _ h => h)
    refine wp_mono (keeps_writeClaimsLoop _ _ _ _ s _) (fun r h1 hk => ?_) (fun _ h => h)
    apply wp_free_some
    · simp [hk.1]
    · refine ⟨by simp [hk.1], ?_⟩
      have := hk.2
      simp only at this ⊢
      omega
  · exact KeepsM.pure _

end L8w8jwt
