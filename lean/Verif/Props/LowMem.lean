import Verif.Props.Answer
import Verif.Props.Oom
/-!
# Property C67: decoding when memory is short
-/

namespace L8w8jwt
open Spec

variable {s : Sched} {h h' : Heap} {env : Env} {p : DecParams} {tok : Bytes}

/-- The end of the body, whatever fails. -/
theorem outcome_lowmem (hx : ExpectOk p) (hn : NowOk env.now) {st : DecState} (ho : Outcome env s p tok st) :
    (st.rc ≠ L8W8JWT_SUCCESS ∧ st.validation = 0xffffffff#32) ∨
    (st.rc = L8W8JWT_SUCCESS ∧ ∃ v ds es b, Answer env p tok Code.success v ds ∧ (b = 0#32 ∨ b = 128#32) ∧
      v = b ||| claimFlags (fun x => claimStarting x ds) env.now p ∧ Views st.claims.items es ∧ es.Sublist ds ∧
      (s.noGrowFail ∨ ds.length ≤ 16 → es = ds) ∧ st.validation = b ||| claimFlags (fun x => claimStarting x es) env.now p) := by
  have code := outcome_code_any ho
  cases ho with
  | oom hf => exact Or.inl ⟨by decide, rfl⟩
  | segs hi hn => exact Or.inl ⟨hn, rfl⟩
  | verify hi he hs =>
    obtain ⟨-, a, b, c, -, hf⟩ := sig_verifyFails hs
    exact Or.inl ⟨(verFails_codes hf).1, rfl⟩
  | claims hi he hs hp hcl => exact Or.inl ⟨show L8W8JWT_DECODE_FAILED_INVALID_TOKEN_FORMAT ≠ L8W8JWT_SUCCESS by decide, rfl⟩
  | @done sg blk cs a b vr v ds1 ds2 hi he hs hp hvw hcl hval hfs =>
    have cd : DecCode env p tok Code.success := by
      rcases code with hc | ⟨-, hc | hc⟩
      · exact hc
      · cases hc
      · cases hc
    obtain ⟨fs1, fs2, c1, c2, s1, s2⟩ := hfs
    obtain ⟨ok1, n1, b1, p1, q1, -⟩ := claimsIn_ok c1
    obtain ⟨ok2, n2, b2, p2, q2, -⟩ := claimsIn_ok c2
    have o1 : ok1 = true := by cases ok1 with | true => rfl | false => exact absurd q1 (by decide)
    have o2 : ok2 = true := by cases ok2 with | true => rfl | false => exact absurd q2 (by decide)
    subst o1; subst o2
    have ht := (validateClaims_ok_iff hvw hx hn _).mp ⟨_, hval⟩
    rw [validateClaims_eq hvw hx hn ht] at hval
    injection hval with hval
    subst hval
    have full : s.noGrowFail ∨ (fs1 ++ fs2).length ≤ 16 → ds1 ++ ds2 = fs1 ++ fs2 := by
      intro hg
      obtain ⟨e1, e2⟩ := hcl (hg.imp (fun x => x) fun hl a' b' hp' => by
        obtain ⟨rfl, rfl⟩ := parts_unique hp hp'
        exact ⟨_, _, c1, c2, by simpa using hl⟩)
      rw [c1] at e1
      rw [c2] at e2
      cases e1
      cases e2
      rfl
    refine Or.inr ⟨rfl, ?_⟩
    cases vr with
    | true =>
      refine ⟨_, _, ds1 ++ ds2, 0#32, .good cd hp p1 p2 (fun hb => (nomatch (sig_bad hs).mpr hb)), Or.inl rfl, ?_, hvw, s1.append s2, full, rfl⟩
      rw [BitVec.zero_or]
    | false =>
      exact ⟨_, _, ds1 ++ ds2, 128#32, .bad cd hp p1 p2 ((sig_bad hs).mp rfl), Or.inr rfl, rfl, hvw, s1.append s2, full, rfl⟩

/-- C67: decoding in any run, whatever allocations fail. A failure sets all flags and hands out nothing. Success is reported only for
tokens for which it is reported when nothing fails; the flag of the signature is the same; the claims handed out are some of the
token's, in order (all of them, if growing the claims buffer does not fail or is not necessary), and the other flags are those
of the claims handed out. -/
theorem C67_decode (hc : CryptoOk env.crypto) (hv : validateDecodingParams env (some p) = L8W8JWT_SUCCESS) (ht : TokenMem p tok)
    (hx : ExpectOk p) (hn : NowOk env.now) {r : DecOut} (he : decode env (some p) false false false s h = .ok (r, h')) :
    (r.rc ≠ Code.success ∧ r.validation = some 0xffffffff#32 ∧ r.claims = none ∧ r.claimsLength = none) ∨
    (r.rc = Code.success ∧ ∃ v ds arr es b, Answer env p tok Code.success v ds ∧ (b = 0#32 ∨ b = 128#32) ∧
      v = b ||| claimFlags (fun x => claimStarting x ds) env.now p ∧
      r.claims = some arr ∧ r.claimsLength = some es.length ∧ Views arr.items es ∧ es.Sublist ds ∧
      (s.noGrowFail ∨ ds.length ≤ 16 → es = ds) ∧
      r.validation = some (b ||| claimFlags (fun x => claimStarting x es) env.now p)) := by
  rcases decode_returns he with ⟨-, -, -, hbad⟩ | ⟨p1, st, g1, hp, -, -, -, hb, rfl⟩
  · exfalso
    rcases hbad with hn | hn | hn
    · exact hn hv
    · cases hn
    · simp at hn
  · cases hp
    rcases outcome_lowmem hx hn (outcome_of hc hv ht hb) with ⟨h1, h2⟩ | ⟨h1, v, ds, es, b, h2, h3, h4, h5, h6, h7, h8⟩
    · left
      rw [decOut, if_pos (by simp [h1])]
      exact ⟨h1, by rw [h2], rfl, rfl⟩
    · right
      rw [decOut, if_neg (by simp [h1])]
      exact ⟨h1, v, ds, _, es, b, h2, h3, h4, rfl, by rw [h5.length], h5, h6, h7, by rw [h8]⟩

/-! ## Which flags may be missing -/

theorem or_within {x x' y y' : BitVec 32} (h : x &&& ~~~x' = 0) (h' : y &&& ~~~y' = 0) : (x ||| y) &&& ~~~(x' ||| y') = 0 := by
  apply BitVec.eq_of_getLsbD_eq
  intro j hj
  have h1 := congrArg (fun z : BitVec 32 => z.getLsbD j) h
  have h2 := congrArg (fun z : BitVec 32 => z.getLsbD j) h'
  simp only [BitVec.getLsbD_and, BitVec.getLsbD_or, BitVec.getLsbD_not, hj, decide_true, Bool.true_and] at h1 h2 ⊢
  revert h1 h2
  generalize x.getLsbD j = a
  generalize y.getLsbD j = b
  generalize x'.getLsbD j = c
  generalize y'.getLsbD j = d
  cases a <;> cases b <;> cases c <;> cases d <;> simp

theorem bit_within {a b : Bool} (k : BitVec 32) (h : a = true → b = true) :
    (if a = true then k else 0) &&& ~~~(if b = true then k else 0) = 0 := by
  cases a with
  | false => simp
  | true =>
    rw [h rfl]
    simp

/-- A claim that is not found sets all flags that another claim would set. -/
theorem claimFlags_within {f f' : Bytes → Option DClaim} (now : Int) (p : DecParams)
    (h : ∀ x ∈ ["iss", "sub", "aud", "jti", "exp", "nbf", "iat", "typ"], f' (str x) = none ∨ f' (str x) = f (str x)) :
    claimFlags f now p &&& ~~~claimFlags f' now p = 0 := by
  have st : ∀ x ∈ ["iss", "sub", "aud", "jti", "exp", "nbf", "iat", "typ"], ∀ e n, strFails f x e n = true → strFails f' x e n = true := by
    intro x hx e n
    unfold strFails
    cases e with
    | none => exact id
    | some e => rcases h x hx with h | h <;> rw [h] <;> simp
  have la : ∀ x ∈ ["iss", "sub", "aud", "jti", "exp", "nbf", "iat", "typ"], ∀ e n t, lateFails f x e n t = true → lateFails f' x e n t = true := by
    intro x hx e n t
    unfold lateFails
    rcases h x hx with h | h <;> rw [h]
    · cases e <;> simp
    · exact id
  have ea : ∀ x ∈ ["iss", "sub", "aud", "jti", "exp", "nbf", "iat", "typ"], ∀ e n t, earlyFails f x e n t = true → earlyFails f' x e n t = true := by
    intro x hx e n t
    unfold earlyFails
    rcases h x hx with h | h <;> rw [h]
    · cases e <;> simp
    · exact id
  have ty : ∀ e n, typFails f e n = true → typFails f' e n = true := by
    intro e n
    unfold typFails
    cases e with
    | none => exact id
    | some e =>
      rcases h "typ" (by simp) with h | h <;> rw [h]
      · exact fun _ => rfl
      · exact id
  unfold claimFlags
  refine or_within (or_within (or_within (or_within (or_within (or_within (or_within ?_ ?_) ?_) ?_) ?_) ?_) ?_) ?_ <;> apply bit_within
  · exact st _ (by simp) _ _
  · exact st _ (by simp) _ _
  · exact st _ (by simp) _ _
  · exact st _ (by simp) _ _
  · exact la _ (by simp) _ _ _
  · exact ea _ (by simp) _ _ _
  · exact ea _ (by simp) _ _ _
  · exact ty _ _

/-- Among some of the claims, the first whose name starts so is the same or none, if there is only one. -/
theorem claimStarting_sublist {name : Bytes} {es ds : List DClaim} (hs : es.Sublist ds) (ho : OnlyOne name ds) :
    claimStarting name es = none ∨ claimStarting name es = claimStarting name ds := by
  unfold OnlyOne at ho
  unfold claimStarting
  rw [← List.head?_filter, ← List.head?_filter]
  have hf := hs.filter (fun d => name.isPrefixOf d.key)
  generalize List.filter (fun d => name.isPrefixOf d.key) es = l at *
  generalize List.filter (fun d => name.isPrefixOf d.key) ds = m at *
  cases l with
  | nil => exact Or.inl rfl
  | cons a l =>
    right
    rw [hf.eq_of_length_le (by simp; omega)]

/-- C67: lack of memory removes no flags if at most one claim of the token starts with each of the registered names: a token that is
accepted as valid is valid. Missing for the full statement: tokens with several such claims, for which it is false
(`C67_flag_lost_false`). -/
theorem C67_flags_partial (hc : CryptoOk env.crypto) (hv : validateDecodingParams env (some p) = L8W8JWT_SUCCESS) (ht : TokenMem p tok)
    (hx : ExpectOk p) (hn : NowOk env.now) {r : DecOut} (he : decode env (some p) false false false s h = .ok (r, h'))
    {rc : Nat} {v : BitVec 32} {ds : List DClaim} (ha : Answer env p tok rc v ds)
    (ho : ∀ x ∈ ["iss", "sub", "aud", "jti", "exp", "nbf", "iat", "typ"], OnlyOne (str x) ds) :
    ∃ v', r.validation = some v' ∧ (rc = Code.success → v &&& ~~~v' = 0) ∧ (v' = 0 → rc = Code.success ∧ v = 0) := by
  rcases C67_decode hc hv ht hx hn he with ⟨-, h2, -⟩ | ⟨-, v0, ds0, arr, es, b, h1, h2, h3, -, -, -, h4, -, h5⟩
  · exact ⟨_, h2, fun _ => by simp, fun h => absurd h (by decide)⟩
  · obtain ⟨e1, rfl, rfl⟩ := answer_unique ha h1
    have key := claimFlags_within (f := fun x => claimStarting x ds) (f' := fun x => claimStarting x es) env.now p fun x hx => claimStarting_sublist h4 (ho x hx)
    have : v &&& ~~~(b ||| claimFlags (fun x => claimStarting x es) env.now p) = 0 := by
      rw [h3]
      exact or_within (by simp) key
    refine ⟨_, h5, fun _ => this, fun h0 => ⟨e1, ?_⟩⟩
    rw [h0] at this
    rwa [show ~~~(0 : BitVec 32) = BitVec.allOnes 32 by decide, BitVec.and_allOnes] at this

/-- The same for a caller that does not want the claims. -/
theorem C67_flags_only_partial (hc : CryptoOk env.crypto) (hv : validateDecodingParams env (some p) = L8W8JWT_SUCCESS) (ht : TokenMem p tok)
    (hx : ExpectOk p) (hn : NowOk env.now) {c : Bool} {r : DecOut} (he : decode env (some p) false true c s h = .ok (r, h'))
    {rc : Nat} {v : BitVec 32} {ds : List DClaim} (ha : Answer env p tok rc v ds)
    (ho : ∀ x ∈ ["iss", "sub", "aud", "jti", "exp", "nbf", "iat", "typ"], OnlyOne (str x) ds) :
    r.claims = none ∧ ∃ v', r.validation = some v' ∧ (rc = Code.success → v &&& ~~~v' = 0) ∧ (v' = 0 → rc = Code.success ∧ v = 0) := by
  rcases decode_returns he with ⟨-, -, -, hbad⟩ | ⟨p1, st, g1, hp, -, -, -, hb, rfl⟩
  · exfalso
    rcases hbad with hn | hn | hn
    · exact hn hv
    · cases hn
    · simp at hn
  · cases hp
    rcases outcome_lowmem hx hn (outcome_of hc hv ht hb) with ⟨h1, h2⟩ | ⟨h1, v0, ds0, es, b, h2, h3, h4, h5, h6, h7, h8⟩
    · rw [decOut, if_pos (by simp)]
      exact ⟨rfl, _, rfl, fun _ => by simp [h2], fun h => absurd (h2.symm.trans h) (by decide)⟩
    · rw [decOut, if_pos (by simp)]
      obtain ⟨e1, rfl, rfl⟩ := answer_unique ha h2
      have key := claimFlags_within (f := fun x => claimStarting x ds) (f' := fun x => claimStarting x es) env.now p fun x hx => claimStarting_sublist h6 (ho x hx)
      have : v &&& ~~~(b ||| claimFlags (fun x => claimStarting x es) env.now p) = 0 := by
        rw [h4]
        exact or_within (by simp) key
      refine ⟨rfl, _, rfl, fun _ => by rw [h8]; exact this, fun h0 => ⟨e1, ?_⟩⟩
      rw [← h8, h0] at this
      rwa [show ~~~(0 : BitVec 32) = BitVec.allOnes 32 by decide, BitVec.and_allOnes] at this

/-! ## Flags that are missing -/

/-- A payload in which the issuer is the sixteenth claim, and again the seventeenth. -/
def twoIss : String := "{\"A\":1,\"B\":1,\"C\":1,\"D\":1,\"E\":1,\"F\":1,\"G\":1,\"H\":1,\"I\":1,\"J\":1,\"K\":1,\"L\":1,\"M\":1,\"N\":1,\"O\":1,\"iss\":\"evil\",\"iss\":\"me\"}"

/-- Growing a buffer fails once. -/
def growOnce (n : Nat) : Sched := { failAlloc := fun _ => false, failGrow := fun k => if k = n then some 0 else none }

/-- Return code, validation result and number of claims. -/
def verdictUnder (s : Sched) (p : DecParams) : Option (Nat × Option VRes × Option Nat) :=
  match decode toy (some p) false false false s heap0 with
  | .ok (r, _) => some (r.rc, r.validation, r.claimsLength)
  | .error _ => none

/-- C67 is false: a token whose issuer is not the expected one is accepted as valid if the claims buffer cannot grow when the issuer is
appended, but can when another claim of that name is (decode.c:361). -/
theorem C67_flag_lost_false : ∃ s p tok, TokenMem p tok ∧ s.noAllocFail ∧ verdictUnder calm p = some (0, some 1, some 18) ∧
    verdictUnder s p = some (0, some 0, some 17) := by
  have h0 : (0 : UInt8) ∉ mkTok hdr1 twoIss (toyMac hdr1 twoIss) := by decide +kernel
  have hl : (mkTok hdr1 twoIss (toyMac hdr1 twoIss)).length < 2 ^ 63 := by decide +kernel
  exact ⟨growOnce 54, { toyDec (mkTok hdr1 twoIss (toyMac hdr1 twoIss)) with validateIss := some (str "me" ++ [0]) }, _,
    toyDec_mem _ 0 h0 hl, fun _ => rfl, by decide +kernel, by decide +kernel⟩

/-- If both are lost the flag is set. -/
example : verdictUnder growFail { toyDec (mkTok hdr1 twoIss (toyMac hdr1 twoIss)) with validateIss := some (str "me" ++ [0]) } =
    some (0, some 1, some 16) := by decide +kernel

/-- The condition of `C67_flags_partial`, met and not met. -/
example : OnlyOne (str "iss") [⟨str "sub", str "a", 0⟩, ⟨str "iss", str "me", 0⟩] ∧
    ¬ OnlyOne (str "iss") [⟨str "issuer", str "a", 0⟩, ⟨str "iss", str "me", 0⟩] := by
  unfold OnlyOne
  decide

end L8w8jwt
