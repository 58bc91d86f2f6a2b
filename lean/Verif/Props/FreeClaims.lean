import Verif.Spec.Resource
import Verif.Props.DecodeSafe
import Verif.Props.DecodeClaims
/-!
# C56: claims can be released, and nothing of them is left behind
-/

namespace L8w8jwt
open Spec

variable {env : Env} {p : DecParams} {s : Sched} {h h' : Heap}

/-- Every claim of the list is blank behind the lengths it states. -/
def Tails (cs : List Claim) : Prop := ∀ c ∈ cs, ∀ b ∈ wiped c.key c.keyLength ++ wiped c.value c.valueLength, Blank b

theorem blank_calloc (n : Nat) (u : Bytes) (mem : Bytes) (hw : wrAt (List.replicate n 0) 0 (u ++ [0]) = .ok mem) :
    Blank (List.replicate u.length 0 ++ mem.drop u.length) := by
  unfold wrAt at hw
  split at hw
  · injection hw with hw
    subst hw
    intro x hx
    simp only [List.take_zero, List.nil_append, List.append_assoc, List.drop_left, List.mem_append] at hx
    rcases hx with hx | hx | hx
    · exact List.eq_of_mem_replicate hx
    · simpa using hx
    · exact List.eq_of_mem_replicate (List.mem_of_mem_drop hx)
  · cases hw

theorem strncpy_length {src : Bytes} {n : Nat} {v : Bytes} (h : strncpy src n = .ok v) : v.length = n := by
  induction n generalizing src v with
  | zero => cases src <;> (injection h with h; subst h; rfl)
  | succ n ih =>
    cases src with
    | nil => cases h
    | cons c t =>
      unfold strncpy at h
      split at h
      · injection h with h; subst h; simp
      · cases hr : strncpy t n with
        | error e => rw [hr] at h; cases h
        | ok w =>
          rw [hr] at h
          injection h with h
          subst h
          simp [ih hr]

theorem tails_unescapeClaim (type : Int) (key : Bytes) (kn : Nat) (value : Bytes) (vn : Nat) :
    wp (unescapeClaim type key kn value vn) s h (fun r _ => ∀ c, r.2 = some c → Tails [c]) (fun _ => True) := by
  unfold unescapeClaim
  rw [wp_bind, wp_iff_forall]
  intro k h1 hk
  rw [wp_bind, wp_iff_forall]
  intro v h2 hv
  have hcal : ∀ (n : Nat) (h h' : Heap) (b : Block), alloc (List.replicate n 0) s h = .ok (some b, h') → b.mem = List.replicate n 0 := by
    intro n h h' b hb
    unfold alloc at hb
    split at hb
    · injection hb with hb; injection hb with hb _; cases hb
    · injection hb with hb; injection hb with hb _; injection hb with hb; subst hb; rfl
  cases k with
  | none =>
    simp only [wp_bind]
    rw [wp_iff_forall]
    intro _ _ _
    rw [wp_iff_forall]
    intro _ _ _
    intro c hc
    cases hc
  | some kb =>
    cases v with
    | none =>
      simp only [wp_bind]
      rw [wp_iff_forall]
      intro _ _ _
      rw [wp_iff_forall]
      intro _ _ _
      intro c hc
      cases hc
    | some vb =>
      have ek := hcal _ _ _ _ hk
      have ev := hcal _ _ _ _ hv
      simp only [wp_bind, wp_lift]
      rw [rwp_iff_forall]
      intro ks _
      rw [rwp_iff_forall]
      intro kmem hkm
      rw [ek] at hkm
      have bk := blank_calloc _ _ _ hkm
      split
      · simp only [wp_bind, wp_lift]
        rw [rwp_iff_forall]
        intro vs _
        rw [rwp_iff_forall]
        intro vmem hvm
        rw [ev] at hvm
        have bv := blank_calloc _ _ _ hvm
        intro c hc b hb
        cases hc
        intro b hb'
        rw [List.mem_singleton] at hb
        subst hb
        simp only [wiped, List.mem_append, List.mem_singleton] at hb'
        rcases hb' with rfl | rfl
        · exact bk
        · exact bv
      · simp only [wp_bind, wp_lift]
        rw [rwp_iff_forall]
        intro vs hvs
        rw [rwp_iff_forall]
        intro vmem hvm
        rw [ev] at hvm
        have bv := blank_calloc _ _ _ hvm
        rw [strncpy_length hvs] at bv
        intro c hc b hb
        cases hc
        intro b hb'
        rw [List.mem_singleton] at hb
        subst hb
        simp only [wiped, List.mem_append, List.mem_singleton] at hb'
        rcases hb' with rfl | rfl
        · exact bk
        · exact bv

theorem Tails.append {a b : List Claim} (ha : Tails a) (hb : Tails b) : Tails (a ++ b) := by
  intro c hc
  rcases List.mem_append.mp hc with h | h
  · exact ha c h
  · exact hb c h

theorem tails_claimsLoop (json : Bytes) (cap r fuel : Nat) (toks : List Tok) (buf : List Claim) (hb : Tails buf) :
    wp (claimsLoop env json cap r fuel toks buf) s h (fun q _ => Tails q.2) (fun _ => True) := by
  induction fuel generalizing toks buf h with
  | zero => unfold claimsLoop; exact hb
  | succ fuel ih =>
    rcases toks with _ | ⟨key, _ | ⟨value, rest⟩⟩
    · exact hb
    · unfold claimsLoop
      rw [wp_bind, wp_lift, rwp_iff_forall]; intro _ _; exact hb
    · unfold claimsLoop
      split
      · exact hb
      · rw [wp_bind, wp_lift, rwp_iff_forall]
        intro q _
        obtain ⟨type, rest⟩ := q
        simp only
        split
        · exact hb
        · rw [wp_bind]
          refine wp_mono (tails_unescapeClaim _ _ _ _ _) (fun q h1 hq => ?_) (fun _ _ => trivial)
          obtain ⟨ur, claim⟩ := q
          cases claim with
          | none => exact hb
          | some c =>
            simp only
            rw [wp_bind, wp_iff_forall]
            have hc := hq c rfl
            intro buf' h2 he
            unfold push at he
            split at he <;> (injection he with he; injection he with h1 h2; subst h1; subst h2)
            · exact ih _ _ (hb.append hc)
            · split
              · refine ih _ _ (hb.append ?_)
                intro d hd
                exact hc d (List.mem_of_mem_take hd)
              · exact ih _ _ (hb.append hc)

theorem tails_parseWithTokens (buf : List Claim) (json text : Bytes) (r : Nat) (tokens : Ptr) (hb : Tails buf) :
    wp (parseWithTokens env buf json text r tokens) s h (fun q _ => Tails q.2) (fun _ => True) := by
  unfold parseWithTokens
  split
  · exact hb
  · split
    · exact trivial
    · split
      · rw [wp_bind, wp_iff_forall]; intro _ _ _; exact hb
      · rw [wp_bind]
        refine wp_mono (tails_claimsLoop _ _ _ _ _ _ hb) (fun q h1 hq => ?_) (fun _ _ => trivial)
        rw [wp_bind, wp_iff_forall]; intro _ _ _; exact hq

theorem tails_parseClaims (buf : List Claim) (json : Ptr) (n : Nat) (hb : Tails buf) :
    wp (parseClaims env buf json n) s h (fun q _ => Tails q.2) (fun _ => True) := by
  unfold parseClaims
  rw [wp_bind, wp_lift, rwp_iff_forall]
  intro j _
  rw [wp_bind, wp_lift, rwp_iff_forall]
  intro t _
  split
  · exact hb
  · exact hb
  · split
    · exact tails_parseWithTokens _ _ _ _ _ hb
    · rw [wp_bind, wp_iff_forall]
      intro q _ _
      cases q with
      | none => exact hb
      | some b => exact tails_parseWithTokens _ _ _ _ _ hb

theorem tails_decodeBody : wp (decodeBody env p) s h (fun st _ => Tails st.claims.items) (fun _ => True) := by
  have h0 : Tails [] := fun c hc => nomatch hc
  unfold decodeBody
  rw [wp_bind, wp_iff_forall]
  intro b _ _
  cases b with
  | none => exact h0
  | some b =>
    simp only
    rw [wp_bind, wp_iff_forall]
    intro sg _ _
    split
    · exact h0
    · rw [wp_bind, wp_iff_forall]
      rintro ⟨r, v⟩ _ _
      simp only
      split
      · exact h0
      · rw [wp_bind]
        refine wp_mono (tails_parseClaims _ _ _ h0) (fun q h1 hq => ?_) (fun _ _ => trivial)
        obtain ⟨r, cs⟩ := q
        simp only
        split
        · exact hq
        · rw [wp_bind]
          refine wp_mono (tails_parseClaims _ _ _ hq) (fun q h1 hq => ?_) (fun _ _ => trivial)
          obtain ⟨r, cs⟩ := q
          simp only
          split
          · exact hq
          · rw [wp_bind, wp_lift, rwp_iff_forall]
            intro v _
            exact hq

theorem Tails.blank {cs : List Claim} (ht : Tails cs) : ∀ b ∈ freedContents cs, Blank b := by
  intro b hb
  obtain ⟨c, hc, hb⟩ := List.mem_flatMap.mp hb
  exact ht c hc b hb

/-- **C56**: whatever the token, the parameters and the failures of the allocator: when `l8w8jwt_free_claims` releases claims that
`l8w8jwt_decode` handed out, or that a decoding function collected and does not hand out, every released key and value is blank. -/
theorem C56_wiped {st : DecState} (he : decodeBody env p s h = .ok (st, h')) : ∀ b ∈ freedContents st.claims.items, Blank b :=
  (wp_iff_forall.mp (tails_decodeBody (env := env) (p := p) (s := s) (h := h)) st h' he).blank

/-- **C56**: the claims handed out by `l8w8jwt_decode`. -/
theorem C56_wiped_out {q : Option DecParams} {a b c : Bool} {r : DecOut} {arr : ClaimArr}
    (he : decode env q a b c s h = .ok (r, h')) (hr : r.claims = some arr) : ∀ b ∈ freedContents arr.items, Blank b := by
  rcases decode_returns he with ⟨ho, -⟩ | ⟨p1, st, g2, hp, -, -, -, hb, rfl⟩
  · exfalso
    rw [ho] at hr
    cases hr
  · unfold decOut at hr
    split at hr
    · cases hr
    · injection hr with hr
      subst hr
      exact C56_wiped hb

/-- **C56**, release: `l8w8jwt_free_claims` on what a successful `l8w8jwt_decode` handed out, called with the number it reported, is
defined, and afterwards the heap is as it was before decoding. (If there are more than 16 claims and growing the buffer fails, claims are lost, see C49.) -/
theorem C56_released (hc : CryptoOk env.crypto) {tok : Bytes} (ht : TokenMem p tok) (g : s.noGrowFail ∨ FewClaims env tok) {a b c : Bool}
    {r : DecOut} {arr : ClaimArr} {n : Nat} (he : decode env (some p) a b c s h = .ok (r, h')) (hr : r.claims = some arr)
    (hn : r.claimsLength = some n) (s' : Sched) :
    ∃ h2, freeClaims arr n s' h' = .ok ((), h2) ∧ h2.live.Perm h.live := by
  rcases decode_returns he with ⟨ho, -⟩ | ⟨p1, st, g2, hp, ha, hb, hv, -, -⟩
  · exfalso
    rw [ho] at hr
    cases hr
  · cases hp
    subst ha
    obtain ⟨⟨st, ho, ⟨ds, hvw⟩, hd⟩, leak, hm, hk⟩ :=
      wp_iff_forall.mp (wp_decode (s := s) (h := h) hc hv ht b c hb (fun _ => True) (Or.inr (fun _ => trivial))) r h' he
    unfold decOut at hd
    split at hd
    · subst hd; cases hr
    · rename_i hrc
      have hlk : leak = [] := by
        refine (hk.none (roomFor_few g)).resolve_right ?_
        rintro ⟨x, y, hxy, hl⟩
        cases ho with
        | oom => exact hrc (by simp)
        | segs _ hne => exact hrc (by simp [hne])
        | @verify sg blk rc _ _ hs =>
          rcases hs with ⟨-, hs⟩ | ⟨-, u1, u2, u3, d, h3, hd3, hs⟩
          · cases hs
          · exact hrc (by simp; exact Or.inr (verFails_codes hs).1)
        | claims => exact hrc (by simp)
        | done _ _ _ hp _ hcl _ =>
          obtain ⟨rfl, rfl⟩ := parts_unique hp hxy
          obtain ⟨c1, c2⟩ := hcl (roomFor_few g)
          rcases hl with hl | hl
          · exact no_leak_of_claims c1 hl
          · exact no_leak_of_claims c2 hl
      subst hlk
      subst hd
      injection hr with hr
      subst hr
      injection hn with hn
      subst hn
      obtain ⟨_, h2, e, m2⟩ := wp_iff_exists.mp (wp_freeClaims (s := s') (m := []) (leak := []) hvw ho.blk (fun _ => False)
        (by simpa [outIds, arrIds] using hm))
      exact ⟨h2, e, by simpa using m2.live⟩

/-- Decode a token with the toy crypto and release the claims: number of claims, live blocks before and after the release. -/
def lifeCycle (q : DecParams) : Option (Nat × Nat × Nat) :=
  match decode toy (some q) false false false calm heap0 with
  | .ok (r, h) => match r.claims with
    | some arr => match freeClaims arr arr.items.length calm h with
      | .ok (_, h') => some (arr.items.length, h.live.length, h'.live.length)
      | .error _ => none
    | none => none
  | .error _ => none

/-- Two claims in five blocks, all of which are released. -/
example : lifeCycle (toyDec (mkTok hdr1 pay1 (toyMac hdr1 pay1))) = some (2, 5, 0) := by decide +kernel

/-- An escaped string: the block is longer than the text, and the rest is blank. -/
example : (match unescapeClaim 0 (str "k") 1 (str "a\\nb") 4 calm heap0 with
    | .ok ((_, some c), _) => (c.value.bytes, freedContents [c])
    | _ => (none, [])) = (some [97, 10, 98, 0, 0], [[0, 0], [0, 0, 0, 0, 0]]) := by decide

/-- A block with something behind the text would not be blank when released. -/
example : ¬ Blank ((wiped (some ⟨0, str "secret"⟩) 3).flatten) := by
  intro h
  exact absurd (h 114 (by decide)) (by decide)

end L8w8jwt
