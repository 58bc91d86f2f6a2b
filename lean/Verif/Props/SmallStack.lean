import Verif.Props.TextFaults

/-!
# Builds with L8W8JWT_SMALL_STACK

`L8W8JWT_SMALL_STACK` is 0 unless it is defined otherwise (version.h:50-56). Where it is set, `write_signature` and
`l8w8jwt_verify_signature` keep the key and the signature in allocated memory (encode.c:235-247,
decode.c:483-492). The theorems about the text hold for both, with the functions of each as they are after preprocessing (`prog`, Link.lean). Here is what the two builds have in common, and what not.
-/

namespace L8w8jwt
namespace C
open Spec

variable {env : Env} {fuel d : Nat} {s : Sched} {st : St} {P : Blk} {b : Bool}

theorem DecCall.small {p : DecParams} {os : List (Option Blk)} (c : DecCall env fuel st P p os) : DecCall { env with smallStack := b } fuel st P p os :=
  ⟨c.wf, c.heap, c.outs, c.params, c.garbage, c.size, c.typ⟩

theorem EncCall.small {p : EncParams} {w : EncPtrs} {O1 O2 : Blk} (c : EncCall env fuel st P p w O1 O2) : EncCall { env with smallStack := b } fuel st P p w O1 O2 :=
  ⟨c.wf, c.params, c.fits, c.out, c.outLength, c.outCell, c.outLengthCell, c.apart⟩

/-- Whether decoding is defined does not depend on where the key is kept. -/
theorem decDefined_small {p : DecParams} {tok : Bytes} (h : DecDefined env p tok) : DecDefined { env with smallStack := b } p tok := by
  intro hs
  obtain ⟨h1, h2⟩ := h hs
  refine ⟨fun ha x y z hp => ?_, fun hf => ?_⟩
  · have v := h1 ha x y z hp
    exact ⟨v.nul, v.cert, v.pem, v.hmac, v.pss, v.ecdsa, v.eddsa⟩
  refine h2 fun rc hx => hf rc ?_
  exact verifyFails_same (g := env.garbage) (b := b) (t := env.now) rfl rfl hx

/-- **C90** The texts of `l8w8jwt_encode` with and without `L8W8JWT_SMALL_STACK` do the same, where encoding is defined and no allocation fails: both
end without undefined behaviour, return the same code, and hand out the same token in a new block, which is the only one left. -/
theorem C90_encode_same_text {p : EncParams} {w : EncPtrs} {O1 O2 : Blk} (c : EncCall env fuel st P p w O1 O2) (hc : CryptoOk env.crypto)
    (hr : TextsReadable p) (hk : KeyReadable p) (hv : validateEncodingParams (some p) = L8W8JWT_SUCCESS) (gd : s.good) (hd : EncDefined env p) :
    ∃ (rc : Nat) (t : Option Bytes) (st1 st2 : St), EncAnswer env p rc t ∧
      runFun (cx { env with smallStack := true } fuel (d + 3)) Src.l8w8jwt_encode [.ptr (some (P, 0))] s st = .ok (.int rc, st1) ∧
      runFun (cx { env with smallStack := false } fuel (d + 3)) Src.l8w8jwt_encode [.ptr (some (P, 0))] s st = .ok (.int rc, st2) ∧
      TokenAt st st1 O1 O2 t ∧ TokenAt st st2 O1 O2 t := by
  obtain ⟨rc, t, a⟩ := encAnswer_exists env p
  have same : ∀ b, EncAnswer { env with smallStack := b } p rc t := fun b =>
    encAnswer_same (gb := env.garbage) (b := b) (t := env.now) ⟨rfl, rfl, rfl, ⟨rfl, rfl, rfl⟩, rfl, rfl, rfl, rfl, rfl, rfl, ⟨.rfl, .rfl⟩, fun _ => .rfl⟩ a
  obtain ⟨rc1, t1, st1, a1, e1, g1⟩ := C79_encode_text (env := { env with smallStack := true }) (d := d) c.small hc hr hk hv gd hd
  obtain ⟨rc2, t2, st2, a2, e2, g2⟩ := C79_encode_text (env := { env with smallStack := false }) (d := d) c.small hc hr hk hv gd hd
  obtain ⟨rfl, rfl⟩ := encAnswer_unique a1 (same true)
  obtain ⟨rfl, rfl⟩ := encAnswer_unique a2 (same false)
  exact ⟨_, _, st1, st2, a, e1, e2, g1, g2⟩

theorem answer_stack {p : DecParams} {tok : Bytes} {rc : Nat} {v : BitVec 32} {ds : List DClaim} (h : Answer { env with smallStack := b } p tok rc v ds) :
    Answer env p tok rc v ds :=
  answer_same (env := { env with smallStack := b }) (g := env.garbage) (b := env.smallStack)
    ⟨rfl, rfl, rfl, rfl, rfl, rfl, ⟨rfl, rfl⟩, ⟨rfl, rfl⟩, ⟨rfl, rfl⟩, ⟨rfl, rfl⟩⟩ h

/-- **C90** The texts of `l8w8jwt_decode` with and without `L8W8JWT_SMALL_STACK` do the same, where decoding is defined and no allocation fails: both
end without undefined behaviour, return the same code, store the same validation result, and show the same claims. -/
theorem C90_decode_same_text {p : DecParams} {tok : Bytes} {O1 O2 O3 : Blk} (c : DecCall env fuel st P p [some O1, some O2, some O3]) (hc : CryptoOk env.crypto)
    (hv : validateDecodingParams env (some p) = L8W8JWT_SUCCESS) (ht : TokenMem p tok) (gd : s.good) (hr : VerKeyReadable p)
    (hx : ExpectOk p) (hn : NowOk env.now) (hd : DecDefined env p tok) :
    ∃ (rc : Nat) (v : BitVec 32) (ds : List DClaim) (st1 st2 : St), Answer env p tok rc v ds ∧
      runFun (cx { env with smallStack := true } fuel (d + 3)) Src.l8w8jwt_decode [.ptr (some (P, 0)), .ptr (some (O1, 0)), .ptr (some (O2, 0)), .ptr (some (O3, 0))] s st =
        .ok (.int rc, st1) ∧
      runFun (cx { env with smallStack := false } fuel (d + 3)) Src.l8w8jwt_decode [.ptr (some (P, 0)), .ptr (some (O1, 0)), .ptr (some (O2, 0)), .ptr (some (O3, 0))] s st =
        .ok (.int rc, st2) ∧
      ∀ st', st' = st1 ∨ st' = st2 → OnlyWrites st st' [O1, O2, O3] ∧ st'.mem O1 = some [.int v.toNat] ∧
        (rc ≠ L8W8JWT_SUCCESS → st'.mem O2 = st.mem O2 ∧ st'.mem O3 = st.mem O3) ∧
        (rc = L8W8JWT_SUCCESS → ∃ w, st'.mem O2 = some [w] ∧ ShowsClaims st'.mem w ds ∧ st'.mem O3 = some [.int ds.length]) := by
  obtain ⟨rc1, v1, ds1, st1, a1, e1, g1⟩ := C77_decode_text (env := { env with smallStack := true }) (d := d) c.small hc hv ht gd hr hx hn (decDefined_small hd)
  obtain ⟨rc2, v2, ds2, st2, a2, e2, g2⟩ := C77_decode_text (env := { env with smallStack := false }) (d := d) c.small hc hv ht gd hr hx hn (decDefined_small hd)
  obtain ⟨rfl, rfl, rfl⟩ := answer_unique (answer_stack a1) (answer_stack a2)
  refine ⟨_, _, _, st1, st2, answer_stack a1, e1, e2, fun st' h => ?_⟩
  rcases h with rfl | rfl
  · exact g1
  · exact g2

/-- **C90** The same of `l8w8jwt_decode_raw`: the same code, validation result and texts. -/
theorem C90_raw_same_text {p : DecParams} {tok : Bytes} {O1 : Blk} {A1 L1 A2 L2 A3 L3 : Option Blk} (c : DecCall env fuel st P p [some O1, A1, L1, A2, L2, A3, L3])
    (hc : CryptoOk env.crypto) (hv : validateDecodingParams env (some p) = L8W8JWT_SUCCESS) (ht : TokenMem p tok) (gd : s.good)
    (hr : VerKeyReadable p) (hx : ExpectOk p) (hn : NowOk env.now) (hd : DecDefined env p tok) (h1 : Paired A1 L1) (h2 : Paired A2 L2)
    (h3 : Paired A3 L3) :
    ∃ (rc : Nat) (v : BitVec 32) (ds : List DClaim) (x y z : Option Bytes) (st1 st2 : St), Answer env p tok rc v ds ∧ HandsOut p.alg tok x y z ∧
      runFun (cx { env with smallStack := true } fuel (d + 3)) Src.l8w8jwt_decode_raw
        [.ptr (some (P, 0)), .ptr (some (O1, 0)), optV A1, optV L1, optV A2, optV L2, optV A3, optV L3] s st = .ok (.int rc, st1) ∧
      runFun (cx { env with smallStack := false } fuel (d + 3)) Src.l8w8jwt_decode_raw
        [.ptr (some (P, 0)), .ptr (some (O1, 0)), optV A1, optV L1, optV A2, optV L2, optV A3, optV L3] s st = .ok (.int rc, st2) ∧
      ∀ st', st' = st1 ∨ st' = st2 → st'.mem O1 = some [.int v.toNat] ∧ HandedAt st.mem st'.mem A1 L1 x ∧ HandedAt st.mem st'.mem A2 L2 y ∧
        HandedAt st.mem st'.mem A3 L3 z ∧
        ∀ b, some b ∉ [some O1, A1, L1, A2, L2, A3, L3] → (∀ j, st.heap.tick ≤ j → b ≠ .heap j) → st'.mem b = st.mem b := by
  obtain ⟨rc1, v1, ds1, x1, y1, z1, st1, a1, q1, e1, g1⟩ :=
    C78_raw_text (env := { env with smallStack := true }) (d := d) c.small hc hv ht gd hr hx hn (decDefined_small hd) h1 h2 h3
  obtain ⟨rc2, v2, ds2, x2, y2, z2, st2, a2, q2, e2, g2⟩ :=
    C78_raw_text (env := { env with smallStack := false }) (d := d) c.small hc hv ht gd hr hx hn (decDefined_small hd) h1 h2 h3
  obtain ⟨rfl, rfl, rfl⟩ := answer_unique (answer_stack a1) (answer_stack a2)
  obtain ⟨rfl, rfl, rfl⟩ := handsOut_unique q1 q2
  refine ⟨_, _, _, _, _, _, st1, st2, answer_stack a1, q1, e1, e2, fun st' h => ?_⟩
  rcases h with rfl | rfl
  · exact g1
  · exact g2

/-! ## When memory is short -/

/-- Encoding, with `L8W8JWT_SMALL_STACK`, if allocation `k` fails. -/
def smallEnc (k : Nat) : Except Err (Val × St) :=
  runFun (cx { toy with smallStack := true } 400 3) Src.l8w8jwt_encode [exPtr 1 0] { calm with failAlloc := fun i => i == k } (exEnc 0 (str "secret"))

/-- Decoding, with `L8W8JWT_SMALL_STACK`, if allocation `k` fails. -/
def smallDec (k : Nat) : Except Err (Val × St) :=
  decodeText (toyDec (mkTok hdr1 pay1 (toyMac hdr1 pay1))) { toy with smallStack := true } { calm with failAlloc := fun i => i == k }

/-- **C90** is false when memory is short: if the buffer for the key cannot be allocated, both texts clear it nevertheless, through a null
pointer (encode.c:239-243 and 576, decode.c:485-489 and 721), whereas without `L8W8JWT_SMALL_STACK` failing allocations do not make encoding undefined (C79). -/
theorem C90_lowmem_false : fault (smallEnc 23) = some (.ub .nullDeref) ∧ fault (smallDec 4) = some (.ub .nullDeref) := by
  constructor <;> decide +kernel

/-- If the one before it fails, which in `write_signature` is the buffer for the signature, both return `L8W8JWT_OUT_OF_MEM`, and leave nothing. -/
example : exToken (smallEnc 22) = some (.int L8W8JWT_OUT_OF_MEM, [some [.undef], some [.undef]], []) ∧
    seen (smallDec 3) = failed L8W8JWT_OUT_OF_MEM 0 := by
  constructor <;> decide +kernel

/-! ## Runs -/

/-- The token is the same as without `L8W8JWT_SMALL_STACK`; its block is the 28th allocation instead of the 26th. -/
example : exToken (runFun (cx { toy with smallStack := true } 400 3) Src.l8w8jwt_encode [exPtr 1 0] calm (exEnc 0 (str "secret"))) =
    some (.int 0, [some [.ptr (some (.heap 27, 0))], some [.int 96]], [some (cells (mkTok exHdr pay1 (toyMac exHdr pay1) ++ [0]))]) := by
  decide +kernel

/-- A good token, a changed one, and a key that is no key. -/
example : seen (decodeText (toyDec (mkTok hdr1 pay1 (toyMac hdr1 pay1))) { toy with smallStack := true }) = accepted 0 2 5 ∧
    seen (decodeText (toyDec (mkTok hdr1 "{\"sub\":\"b\"}" (toyMac hdr1 pay1))) { toy with smallStack := true }) = accepted 128 2 5 ∧
    seen (decodeText (toyDec (mkTok hdr1 pay1 (toyMac hdr1 pay1)) 13) { toy with smallStack := true }) = failed Code.wrongKey 0 := by
  decide +kernel

end C
end L8w8jwt
