import Verif.C.ValidateProof
/-!
# What the functions of src/decode.c do to the allocator

Block numbers are never reused: the live blocks are distinct, and older than the next one.
-/

namespace L8w8jwt.C
open L8w8jwt

/-- The live blocks are distinct and have been allocated. -/
structure HeapWf (h : Heap) : Prop where
  nodup : h.live.Nodup
  lt : ∀ i ∈ h.live, i < h.tick

/-- `m` keeps the allocator in order. -/
def Tidy {α : Type} (m : M α) : Prop := ∀ s h a h', m s h = .ok (a, h') → HeapWf h → HeapWf h' ∧ h.tick ≤ h'.tick

theorem Tidy.pure {α : Type} (a : α) : Tidy (pure a : M α) := by
  rintro s h x h' hr hw
  cases hr
  exact ⟨hw, Nat.le_refl _⟩

theorem Tidy.lift {α : Type} (x : Res α) : Tidy (M.lift x) := by
  rintro s h a h' hr hw
  obtain ⟨_, rfl⟩ := M.lift_inv hr
  exact ⟨hw, Nat.le_refl _⟩

theorem Tidy.bind {α β : Type} {m : M α} {f : α → M β} (h1 : Tidy m) (h2 : ∀ a, Tidy (f a)) : Tidy (m >>= f) := by
  rintro s h a h' hr hw
  obtain ⟨x, g, e1, e2⟩ := M.bind_inv hr
  obtain ⟨w1, t1⟩ := h1 _ _ _ _ e1 hw
  obtain ⟨w2, t2⟩ := h2 _ _ _ _ _ e2 w1
  exact ⟨w2, by omega⟩

theorem Tidy.liftBind {α β : Type} {x : Res α} {f : α → M β} (h2 : ∀ a, Tidy (f a)) : Tidy (M.lift x >>= f) := Tidy.bind (Tidy.lift x) h2

theorem Tidy.alloc (c : Bytes) : Tidy (alloc c) := by
  rintro s h a h' hr hw
  unfold L8w8jwt.alloc at hr
  split at hr
  · cases hr
    exact ⟨⟨hw.nodup, fun i hi => by have := hw.lt i hi; simp; omega⟩, by simp⟩
  · cases hr
    refine ⟨⟨?_, ?_⟩, by simp⟩
    · refine List.nodup_cons.mpr ⟨fun hi => ?_, hw.nodup⟩
      have := hw.lt _ hi
      omega
    · intro i hi
      rcases List.mem_cons.mp hi with rfl | hi
      · simp
      · have := hw.lt i hi; simp; omega

theorem Tidy.free (p : Ptr) : Tidy (free p) := by
  rintro s h ⟨⟩ h' hr hw
  have k := free_ok hr
  exact ⟨⟨(free_nodup hr hw.nodup).1, fun i hi => by have := hw.lt i (k.2.2 i hi); omega⟩, by omega⟩

theorem Tidy.push {α : Type} (cap : Nat) (buf es : List α) : Tidy (push cap buf es) := by
  rintro s h a h' hr hw
  unfold L8w8jwt.push at hr
  split at hr <;> cases hr <;> exact ⟨⟨hw.nodup, fun i hi => by have := hw.lt i hi; simp; omega⟩, by simp⟩

theorem Tidy.ite {α : Type} {c : Prop} [Decidable c] {a b : M α} (h1 : Tidy a) (h2 : Tidy b) : Tidy (if c then a else b) := by
  split
  · exact h1
  · exact h2

theorem tidy_base64Decode (url : Bool) (data : Option Bytes) (n : Nat) (a b : Bool) : Tidy (base64Decode url data n a b) := by
  unfold base64Decode
  split
  · exact Tidy.pure _
  · refine Tidy.ite (Tidy.pure _) (Tidy.ite (Tidy.pure _) (Tidy.liftBind fun _ => Tidy.liftBind fun _ => Tidy.ite (Tidy.pure _) (Tidy.bind (Tidy.alloc _) fun p => ?_)))
    split
    · exact Tidy.pure _
    · split
      · exact Tidy.bind (Tidy.free _) fun _ => Tidy.pure _
      · exact Tidy.ite (Tidy.lift _) (Tidy.pure _)

theorem tidy_decodeSegments (p : DecParams) : Tidy (decodeSegments p) := by
  unfold decodeSegments
  refine Tidy.liftBind fun _ => Tidy.liftBind fun n1 => ?_
  split
  · exact Tidy.pure _
  · refine Tidy.bind (tidy_base64Decode _ _ _ _ _) fun _ => Tidy.ite (Tidy.pure _) (Tidy.liftBind fun n2 => Tidy.ite (Tidy.pure _) ?_)
    refine Tidy.bind (tidy_base64Decode _ _ _ _ _) fun _ => Tidy.ite (Tidy.pure _) ?_
    split
    · exact Tidy.pure _
    · exact Tidy.bind (tidy_base64Decode _ _ _ _ _) fun _ => Tidy.pure _

theorem tidy_verifySignature (env : Env) (p : DecParams) (v : VRes) (sig : Ptr) (n : Nat) : Tidy (verifySignature env p v sig n) := by
  unfold verifySignature
  refine Tidy.ite (Tidy.pure _) (Tidy.liftBind fun _ => Tidy.ite ?_ (Tidy.liftBind fun _ => Tidy.pure _))
  exact Tidy.bind (Tidy.alloc _) fun _ => Tidy.bind (Tidy.ite (Tidy.pure _) (Tidy.lift _)) fun _ => Tidy.liftBind fun _ =>
    Tidy.bind (Tidy.free _) fun _ => Tidy.pure _

theorem tidy_unescapeClaim (type : Int) (key : Bytes) (kl : Nat) (value : Bytes) (vl : Nat) : Tidy (unescapeClaim type key kl value vl) := by
  unfold unescapeClaim
  refine Tidy.bind (Tidy.alloc _) fun k => Tidy.bind (Tidy.alloc _) fun v => ?_
  split
  · refine Tidy.liftBind fun _ => Tidy.liftBind fun _ => Tidy.ite (Tidy.liftBind fun _ => Tidy.liftBind fun _ => Tidy.pure _)
      (Tidy.liftBind fun _ => Tidy.liftBind fun _ => Tidy.pure _)
  · exact Tidy.bind (Tidy.free _) fun _ => Tidy.bind (Tidy.free _) fun _ => Tidy.pure _

theorem tidy_claimsLoop (env : Env) (json : Bytes) (cap r : Nat) : ∀ (f : Nat) (ts : List Tok) (buf : List Claim), Tidy (claimsLoop env json cap r f ts buf)
  | 0, ts, buf => by cases ts <;> exact Tidy.pure _
  | f + 1, [], buf => Tidy.pure _
  | f + 1, [_], buf => Tidy.liftBind fun _ => Tidy.pure _
  | f + 1, key :: value :: rest, buf => by
    rw [claimsLoop]
    refine Tidy.ite (Tidy.pure _) (Tidy.liftBind fun x => ?_)
    obtain ⟨ty, rest'⟩ := x
    cases ty with
    | none => exact Tidy.pure _
    | some ty =>
      refine Tidy.bind (tidy_unescapeClaim _ _ _ _ _) fun x => ?_
      obtain ⟨ur, cl⟩ := x
      cases cl with
      | none => exact Tidy.pure _
      | some c => exact Tidy.bind (Tidy.push _ _ _) fun _ => tidy_claimsLoop env json cap r f _ _

theorem tidy_parseWithTokens (env : Env) (buf : List Claim) (json text : Bytes) (r : Nat) (t : Ptr) : Tidy (parseWithTokens env buf json text r t) := by
  unfold parseWithTokens
  split
  · exact Tidy.pure _
  · split
    · exact Tidy.lift _
    · exact Tidy.ite (Tidy.bind (Tidy.free _) fun _ => Tidy.pure _)
        (Tidy.bind (tidy_claimsLoop _ _ _ _ _ _ _) fun _ => Tidy.bind (Tidy.free _) fun _ => Tidy.pure _)

theorem tidy_parseClaims (env : Env) (buf : List Claim) (json : Ptr) (n : Nat) : Tidy (parseClaims env buf json n) := by
  unfold parseClaims
  refine Tidy.liftBind fun _ => Tidy.liftBind fun _ => ?_
  split
  · exact Tidy.pure _
  · exact Tidy.pure _
  · refine Tidy.ite (tidy_parseWithTokens _ _ _ _ _ _) (Tidy.bind (Tidy.alloc _) fun t => ?_)
    split
    · exact Tidy.pure _
    · exact tidy_parseWithTokens _ _ _ _ _ _

/-- Claims are appended, and their strings are new blocks; there are no more of them than characters. -/
theorem claimsLoop_length {env : Env} {jm : Bytes} {cap r : Nat} {s : Sched} : ∀ {f : Nat} {ts : List Tok} {buf buf' : List Claim} {h h' : Heap} {rc : Nat},
    claimsLoop env jm cap r f ts buf s h = .ok ((rc, buf'), h') → buf'.length ≤ buf.length + f
  | 0, ts, buf, buf', h, h', rc, hr => by
    cases ts <;> cases hr <;> simp
  | f + 1, [], buf, buf', h, h', rc, hr => by
    cases hr; simp
  | f + 1, [_], buf, buf', h, h', rc, hr => by
    obtain ⟨_, _, hr2⟩ := M.liftBind_inv hr
    cases hr2; simp
  | f + 1, key :: value :: rest, buf, buf', h, h', rc, hr => by
    rw [claimsLoop] at hr
    split at hr
    · cases hr; simp
    · obtain ⟨⟨ty, rest'⟩, _, hr2⟩ := M.liftBind_inv hr
      cases ty with
      | none => cases hr2; simp
      | some ty =>
        obtain ⟨⟨ur, cl⟩, h1, hu, hr3⟩ := M.bind_inv hr2
        cases cl with
        | none => cases hr3; simp
        | some c =>
          obtain ⟨b2, h2, hp, hr4⟩ := M.bind_inv hr3
          have := claimsLoop_length hr4
          have : b2.length ≤ buf.length + 1 := by
            unfold push at hp
            split at hp
            · cases hp; simp
            · cases hp
              split <;> simp <;> omega
          omega

theorem parseWithTokens_ids {env : Env} {buf buf' : List Claim} {json text : Bytes} {r rc : Nat} {t : Ptr} {s : Sched} {h h' : Heap}
    (hc : jsmnCount text = .ok r) (hr : parseWithTokens env buf json text r t s h = .ok ((rc, buf'), h')) :
    (∀ c ∈ buf', c ∈ buf ∨ ∀ b, (c.key = some b ∨ c.value = some b) → h.tick ≤ b.id) ∧ buf'.length ≤ buf.length + r := by
  unfold parseWithTokens at hr
  cases hj : jsmnParse text r with
  | error e => rw [hj] at hr; cases hr; exact ⟨fun c hc => Or.inl hc, by simp⟩
  | ok x =>
    obtain ⟨r2, toks⟩ := x
    rw [hj] at hr
    simp only at hr
    cases toks with
    | nil => cases hr
    | cons t0 ts =>
      simp only at hr
      split at hr
      · obtain ⟨_, g, _, hr2⟩ := M.bind_inv hr
        cases hr2
        exact ⟨fun c hc => Or.inl hc, by simp⟩
      · obtain ⟨⟨rc', b'⟩, g, hl, hr2⟩ := M.bind_inv hr
        obtain ⟨_, g2, _, hr3⟩ := M.bind_inv hr2
        cases hr3
        refine ⟨claimsLoop_ids hl, ?_⟩
        have := claimsLoop_length hl
        have := jsmn_counts hc hj
        omega

theorem parseClaims_ids {env : Env} {buf buf' : List Claim} {json : Ptr} {n rc : Nat} {s : Sched} {h h' : Heap}
    (hr : parseClaims env buf json n s h = .ok ((rc, buf'), h')) :
    (∀ c ∈ buf', c ∈ buf ∨ ∀ b, (c.key = some b ∨ c.value = some b) → h.tick ≤ b.id) ∧ buf'.length ≤ buf.length + n := by
  unfold parseClaims at hr
  obtain ⟨jm, _, hr⟩ := M.liftBind_inv hr
  obtain ⟨t, ht, hr⟩ := M.liftBind_inv hr
  have htl := rdN_length ht
  cases hc : jsmnCount t with
  | error e => rw [hc] at hr; cases hr; exact ⟨fun c hc => Or.inl hc, by omega⟩
  | ok k =>
    have := jsmnCount_le hc
    rw [hc] at hr
    cases k with
    | zero => cases hr; exact ⟨fun c hc => Or.inl hc, by omega⟩
    | succ k =>
      simp only at hr
      split at hr
      · obtain ⟨a, b⟩ := parseWithTokens_ids hc hr
        exact ⟨a, by omega⟩
      · obtain ⟨p, g, hp, hr2⟩ := M.bind_inv hr
        have hg := alloc_inv hp
        cases p with
        | none => cases hr2; exact ⟨fun c hc => Or.inl hc, by omega⟩
        | some p =>
          obtain ⟨a, b⟩ := parseWithTokens_ids hc hr2
          refine ⟨fun c hc => (a c hc).imp id fun h b hb => ?_, by omega⟩
          have := h b hb
          omega

end L8w8jwt.C
