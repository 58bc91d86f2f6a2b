import Verif.Props.DecodeRaw
import Verif.Props.LowMem
import Verif.Props.Client
/-!
# Property C72: what the raw functions hand out, also when they fail
-/

namespace L8w8jwt
open Spec

variable {s : Sched} {h h' : Heap} {env : Env} {p : DecParams} {tok : Bytes}

/-- What a caller finds in an out argument: it is not touched if it was not given (`skip`); otherwise it is NULL with length 0, or a
buffer that starts with the octets, with their number. -/
def Handed (skip : Bool) (o : Option (Ptr × Nat)) (x : Option Bytes) : Prop :=
  if skip then o = none
  else match x with
    | none => o = some (none, 0)
    | some d => ∃ id mem, o = some (some ⟨id, mem⟩, d.length) ∧ mem.take d.length = d

theorem SegIs.handed {q : Ptr} {n : Nat} {x : Option Bytes} (hs : SegIs q n x) (b : Bool) : Handed b (given b q n) x := by
  unfold Handed given
  cases b with
  | true => rfl
  | false =>
    cases x with
    | none => obtain ⟨rfl, rfl⟩ := hs; rfl
    | some d => obtain ⟨id, mem, rfl, rfl, hm⟩ := hs; exact ⟨id, mem, rfl, hm⟩

theorem SegMay.handed {q : Ptr} {n : Nat} {x : Option Bytes} (hs : SegMay q n x) (b : Bool) :
    Handed b (given b q n) x ∨ Handed b (given b q n) none := by
  rcases hs with hs | hs
  · exact Or.inr (SegIs.handed (x := none) hs b)
  · exact Or.inl (hs.handed b)

/-- There is only one way to fulfil `HandsOut`. -/
theorem handsOut_unique {alg : Int} {x y z x' y' z' : Option Bytes} (h1 : HandsOut alg tok x y z) (h2 : HandsOut alg tok x' y' z') :
    x = x' ∧ y = y' ∧ z = z' := by
  cases h1 with
  | one hn =>
    cases h2 with
    | one => exact ⟨rfl, rfl, rfl⟩
    | two q => exact absurd (by rw [q.1]; simp) hn
    | three q => exact absurd (by rw [q.1]; simp) hn
  | two q =>
    cases h2 with
    | one hn => exact absurd (by rw [q.1]; simp) hn
    | two q' => obtain ⟨rfl, rfl⟩ := two_unique q q'; exact ⟨rfl, rfl, rfl⟩
    | three q' => exact (two_not_three q q').elim
  | three q =>
    cases h2 with
    | one hn => exact absurd (by rw [q.1]; simp) hn
    | two q' => exact (two_not_three q' q).elim
    | three q' => obtain ⟨rfl, rfl, rfl⟩ := three_unique q q'; exact ⟨rfl, rfl, rfl⟩

/-- Every token hands out something definite. -/
theorem handsOut_exists (alg : Int) (tok : Bytes) : ∃ x y z, HandsOut alg tok x y z := by
  rcases first_dot tok with hn | ⟨a, t, rfl, ha⟩
  · exact ⟨_, _, _, .one hn⟩
  · rcases first_dot t with ht | ⟨b, c, rfl, hb⟩
    · exact ⟨_, _, _, .two ⟨rfl, ha, ht⟩⟩
    · exact ⟨_, _, _, .three ⟨rfl, ha, hb⟩⟩

/-- The body of `l8w8jwt_decode_raw` was executed. -/
theorem raw_body (hc : CryptoOk env.crypto) (hv : validateDecodingParams env (some p) = L8W8JWT_SUCCESS) (ht : TokenMem p tok)
    {xa : RawArgs} (hx : xa.bad = false) {r : RawOut} (he : decodeRaw env (some p) false xa s h = .ok (r, h')) :
    ∃ st, Outcome env s p tok st ∧ r = rawOut xa st := by
  rcases decodeRaw_returns he with ⟨-, -, -, hbad⟩ | ⟨p1, st, g1, hp, -, -, -, hb, rfl⟩
  · exfalso
    rcases hbad with hn | hn | hn
    · exact hn hv
    · cases hn
    · rw [hx] at hn; cases hn
  · cases hp
    exact ⟨st, outcome_of hc hv ht hb, rfl⟩

theorem outcome_handed (g : s.noAllocFail) {st : DecState} (ho : Outcome env s p tok st) {x y z : Option Bytes} (hz : HandsOut p.alg tok x y z)
    (xa : RawArgs) : Handed xa.header (rawOut xa st).header x ∧ Handed xa.payload (rawOut xa st).payload y ∧
      Handed xa.signature (rawOut xa st).signature z := by
  have hi : SegInfo s p.alg tok st.segs := by
    cases ho with
    | oom hx => exact absurd g hx
    | segs hi => exact hi
    | verify hi => exact hi
    | claims hi => exact hi
    | done hi => exact hi
  obtain ⟨x', y', z', hz', -, hs⟩ := hi.handed
  obtain ⟨rfl, rfl, rfl⟩ := handsOut_unique hz hz'
  obtain ⟨a, b, c⟩ := hs g
  exact ⟨a.handed _, b.handed _, c.handed _⟩

/-- C72: `l8w8jwt_decode_raw` computes a function of the token, the key and the expected values: whenever decoding is defined, and no
allocation fails, return code and validation result are those of the specification (those of `l8w8jwt_decode`, `C62_decode`), and
exactly the segments before the first one that cannot be decoded are handed out, whatever the return code. -/
theorem C72_raw_answer (hc : CryptoOk env.crypto) (hv : validateDecodingParams env (some p) = L8W8JWT_SUCCESS) (ht : TokenMem p tok)
    (gd : s.good) (hr : VerKeyReadable p) (hx : ExpectOk p) (hn : NowOk env.now) (hd : DecDefined env p tok) {xa : RawArgs}
    (ha : xa.bad = false) :
    ∃ r h' rc v ds x y z, decodeRaw env (some p) false xa s h = .ok (r, h') ∧ Answer env p tok rc v ds ∧ HandsOut p.alg tok x y z ∧
      r.rc = rc ∧ r.validation = some v ∧ Handed xa.header r.header x ∧ Handed xa.payload r.payload y ∧
      Handed xa.signature r.signature z := by
  have safe : SegCode p.alg tok L8W8JWT_SUCCESS → DecSafe env s p tok := hd.safe gd hr hx hn env.garbage
  obtain ⟨r, h', he, ⟨st, out, rfl⟩, -⟩ :=
    wp_iff_exists.mp (wp_decodeRaw (s := s) (h := h) hc hv ht xa ha (fun _ => False) (Or.inl safe))
  obtain ⟨ds, hans, -⟩ := outcome_answer gd hx hn out
  obtain ⟨x, y, z, hz⟩ := handsOut_exists p.alg tok
  exact ⟨_, h', _, _, ds, x, y, z, he, hans, hz, rfl, rfl, outcome_handed gd.1 out hz xa⟩

/-- C72: the same for `l8w8jwt_decode_raw_no_validation`, with the return code of splitting the token; it is always defined. -/
theorem C72_raw_nv_answer (hv : validateDecodingParams env (some p) = L8W8JWT_SUCCESS) (ht : TokenMem p tok) (g : s.noAllocFail)
    {xa : RawArgs} (ha : xa.bad = false) (hn : (xa.header && xa.payload && xa.signature) = false) :
    ∃ r h' x y z, decodeRawNoValidation env (some p) xa s h = .ok (r, h') ∧ SegCode p.alg tok r.rc ∧ HandsOut p.alg tok x y z ∧
      r.validation = none ∧ Handed xa.header r.header x ∧ Handed xa.payload r.payload y ∧ Handed xa.signature r.signature z := by
  obtain ⟨r, h', he, ⟨sg, hi, rfl⟩, -⟩ := wp_iff_exists.mp (wp_decodeRawNv (s := s) (h := h) hv ht xa ha hn (fun _ => False))
  obtain ⟨x, y, z, hz, -, hs⟩ := hi.handed
  obtain ⟨a, b, c⟩ := hs g
  exact ⟨_, h', x, y, z, he, hi.code.resolve_right (fun hx => hx.2 g), hz, rfl, a.handed _, b.handed _, c.handed _⟩

/-- C72: when memory is short, a raw function hands out these segments or fewer of them, never anything else; success is reported only
if it is reported with enough memory, and then all of them are handed out; a failure sets all validation flags. Missing for the full statement: that a failure hands out
nothing, which is false (`C72_only_success_false`). -/
theorem C72_raw_lowmem_partial (hc : CryptoOk env.crypto) (hv : validateDecodingParams env (some p) = L8W8JWT_SUCCESS) (ht : TokenMem p tok)
    (hx : ExpectOk p) (hn : NowOk env.now) {xa : RawArgs} (ha : xa.bad = false) {r : RawOut}
    (he : decodeRaw env (some p) false xa s h = .ok (r, h')) {x y z : Option Bytes} (hz : HandsOut p.alg tok x y z) :
    (Handed xa.header r.header x ∨ Handed xa.header r.header none) ∧
    (Handed xa.payload r.payload y ∨ Handed xa.payload r.payload none) ∧
    (Handed xa.signature r.signature z ∨ Handed xa.signature r.signature none) ∧
    (r.rc ≠ Code.success → r.validation = some 0xffffffff#32) ∧
    (r.rc = Code.success → (∃ v ds, Answer env p tok Code.success v ds) ∧ Handed xa.header r.header x ∧ Handed xa.payload r.payload y ∧
      Handed xa.signature r.signature z) := by
  obtain ⟨st, ho, rfl⟩ := raw_body hc hv ht ha he
  have may : (Handed xa.header (rawOut xa st).header x ∨ Handed xa.header (rawOut xa st).header none) ∧
      (Handed xa.payload (rawOut xa st).payload y ∨ Handed xa.payload (rawOut xa st).payload none) ∧
      (Handed xa.signature (rawOut xa st).signature z ∨ Handed xa.signature (rawOut xa st).signature none) := by
    rcases ho.info with ⟨-, h2⟩ | hi
    · unfold rawOut
      rw [h2]
      exact ⟨Or.inr (segIs_null.handed _), Or.inr (segIs_null.handed _), Or.inr (segIs_null.handed _)⟩
    · obtain ⟨x', y', z', hz', ⟨a, b, c⟩, -⟩ := hi.handed
      obtain ⟨rfl, rfl, rfl⟩ := handsOut_unique hz hz'
      exact ⟨a.handed _, b.handed _, c.handed _⟩
  refine ⟨may.1, may.2.1, may.2.2, fun hf => ?_, fun hk => ?_⟩
  · rcases outcome_lowmem hx hn ho with ⟨-, h2⟩ | ⟨h1, -⟩
    · show some st.validation = _
      rw [h2]
    · exact absurd h1 hf
  · rcases outcome_lowmem hx hn ho with ⟨h1, -⟩ | ⟨-, v, ds, -, -, h2, -⟩
    · exact absurd hk h1
    · refine ⟨⟨v, ds, h2⟩, ?_⟩
      have full : SegInfo s p.alg tok st.segs ∧ st.segs.rc = L8W8JWT_SUCCESS := by
        have hk : st.rc = L8W8JWT_SUCCESS := hk
        cases ho with
        | oom => exact absurd (show L8W8JWT_OUT_OF_MEM = L8W8JWT_SUCCESS from hk) (by decide)
        | segs hi hne => exact absurd hk hne
        | verify hi hs hsig =>
          obtain ⟨-, _, _, _, -, hf⟩ := sig_verifyFails hsig
          exact absurd hk (verFails_codes hf).1
        | claims hi hs => exact ⟨hi, hs⟩
        | done hi hs => exact ⟨hi, hs⟩
      obtain ⟨hi, hs⟩ := full
      have code := hi.segCode hs
      rcases hi.parts with ⟨hno, -⟩ | ⟨a, b, h2, -, -, e1, e2, hseg⟩ | ⟨a, b, c, h3, -, -, -, hseg⟩
      · rcases code with ⟨-, hc⟩ | ⟨a, b, h2p, -⟩ | ⟨a, b, c, h3p, -⟩
        · exact absurd hc (by decide)
        · exact absurd (by rw [h2p.1]; simp) hno
        · exact absurd (by rw [h3p.1]; simp) hno
      · obtain ⟨halg, A, B⟩ := hseg hs
        obtain ⟨rfl, rfl, rfl⟩ := handsOut_unique hz (.two h2)
        rw [decodedIf_pos ⟨by obtain ⟨_, _, _, hd, _⟩ := A; rw [hd]; rfl, halg⟩]
        refine ⟨A.is.handed _, B.is.handed _, ?_⟩
        unfold rawOut
        simp only [e1, e2]
        exact segIs_null.handed _
      · obtain ⟨A, B, C⟩ := hseg hs
        obtain ⟨rfl, rfl, rfl⟩ := handsOut_unique hz (.three h3)
        have i1 : (b64Decode true a).isSome = true := by obtain ⟨_, _, _, hd, _⟩ := A; rw [hd]; rfl
        have i2 : (b64Decode true b).isSome = true := by obtain ⟨_, _, _, hd, _⟩ := B; rw [hd]; rfl
        rw [decodedIf_pos i1, decodedIf_pos ⟨i1, i2⟩]
        exact ⟨A.is.handed _, B.is.handed _, C.is.handed _⟩

/-- C72 is false, for every token in three parts whose first two can be decoded: whatever decoding returns (also if the signature cannot
be decoded, the key cannot be parsed or is of the wrong kind, or a JSON text is malformed), the payload is handed out, in a block that
was not live before and is live now: a caller that believes the documentation loses it. -/
theorem C72_only_success_false (hc : CryptoOk env.crypto) (hv : validateDecodingParams env (some p) = L8W8JWT_SUCCESS) (ht : TokenMem p tok)
    (g : s.noAllocFail) {xa : RawArgs} (ha : xa.bad = false) (hp : xa.payload = false) {r : RawOut}
    (he : decodeRaw env (some p) false xa s h = .ok (r, h'))
    {a b c da db : Bytes} (h3 : ThreeParts tok a b c) (d1 : b64Decode true a = some da) (d2 : b64Decode true b = some db) :
    ∃ id mem, r.payload = some (some ⟨id, mem⟩, db.length) ∧ mem.take db.length = db ∧ id ∈ h'.live ∧ h.tick ≤ id := by
  obtain ⟨st, ho, rfl⟩ := raw_body hc hv ht ha he
  have := (outcome_handed g ho (.three h3) xa).2.1
  rw [d1, decodedIf_pos (c := (some da).isSome = true) rfl, d2, Handed, hp] at this
  obtain ⟨id, mem, e1, e2⟩ := this
  refine ⟨id, mem, e1, e2, ?_⟩
  obtain ⟨-, leak, hm, -⟩ := wp_iff_forall.mp (wp_decodeRaw (s := s) (h := h) hc hv ht xa ha (fun _ => True) (Or.inr fun _ => trivial)) _ _ he
  obtain ⟨l, hl, hperm⟩ := hm
  have : id ∈ l := hperm.mem_iff.mpr (by simp [rawIds, givenIds, e1, Ptr.ids])
  exact ⟨by rw [hl.live]; simp [this], (hl.fresh id this).1⟩

/-- Return code, validation result, payload and number of blocks that are live afterwards. -/
def rawSeen (r : Res (RawOut × Heap)) : Option (Nat × Option VRes × Option Bytes × Nat) :=
  match r with
  | .ok (r, h) => some (r.rc, r.validation, r.payload.bind fun x => x.1.bytes.map (·.take x.2), h.live.length)
  | .error _ => none

/-- C72 is false: a token with a correct signature whose payload is no JSON, and a token whose signature cannot be checked with the
given key. Decoding fails, all flags are set, and the payload is handed out with two other blocks. -/
theorem C72_handed_out_false :
    rawSeen (decodeRaw toy (some (toyDec (mkTok hdr1 "secret" (toyMac hdr1 "secret")))) false {} calm heap0) =
      some (Code.format, some 0xffffffff#32, some (str "secret"), 3) ∧
    rawSeen (decodeRaw toy (some { toyDec (mkTok hdr1 pay1 (toyMac hdr1 pay1)) with alg := 3 }) false {} calm heap0) =
      some (Code.keyParse, some 0xffffffff#32, some (str pay1), 3) := by
  constructor <;> decide +kernel

/-- Where the first segment that cannot be decoded ends it: an empty payload, a signature that is no base64url, no signature. -/
example : rawBytes (decodeRaw toy (some (toyDec (mkTok hdr1 "" (toyMac hdr1 "")))) false {} calm heap0) =
      some (Code.base64, [some (str hdr1), none, none]) ∧
    rawBytes (decodeRaw toy (some (toyDec (str "e30.e30.===="))) false {} calm heap0) = some (Code.base64, [some (str "{}"), some (str "{}"), none]) ∧
    rawBytes (decodeRaw toy (some (toyDec (str "e30.e30"))) false {} calm heap0) = some (Code.missingSignature, [some (str "{}"), none, none]) ∧
    rawBytes (decodeRawNoValidation toy (some { toyDec (str "e30.e30") with alg := -1 }) {} calm heap0) =
      some (Code.success, [some (str "{}"), some (str "{}"), none]) := by
  refine ⟨?_, ?_, ?_, ?_⟩ <;> decide +kernel

/-- What the specification says about the last two. -/
example : HandsOut 0 (str "e30.e30") (some (str "{}")) none none ∧ HandsOut (-1) (str "e30.e30") (some (str "{}")) (some (str "{}")) none := by
  have two : TwoParts (str "e30.e30") (str "e30") (str "e30") := by unfold TwoParts; decide
  have dec : b64Decode true (str "e30") = some (str "{}") := by decide +kernel
  refine ⟨?_, ?_⟩
  · have := HandsOut.two (alg := 0) two
    rwa [dec, decodedIf_neg (by decide)] at this
  · have := HandsOut.two (alg := -1) two
    rwa [dec, decodedIf_pos (by decide), dec] at this

end L8w8jwt
