import Verif.Props.TextEncode
/-!
# C82: the defects, in executions of the text

Theorems whose names end in `_false` say that the model refutes a property one would expect. Here the same is shown without the model:
the text of /repo/src is executed, from the first statement of `l8w8jwt_decode` or `l8w8jwt_encode` to its last, on the arguments of those
theorems. Executions that are undefined, and claims that are read back from memory, are computed by the kernel from the text; long
executions that end properly (`accepted_of`, `failed_of`, `handed_of`) are obtained through `decode_text` and `encode_text_call`.
-/

namespace L8w8jwt.C

open Spec

/-- The address of object `i` if the argument is present. -/
def argAt {α : Type} (i : Nat) : Option α → Val
  | none => .ptr none
  | some _ => exPtr i 0

/-- `bool` as an `int`. -/
def flagInt (b : Bool) : Int := if b then 1 else 0

/-- Parameters for decoding, and what they refer to, in memory; the three out arguments are objects 3, 4, 5. -/
def askSt (p : DecParams) : St where
  fr := []
  heap := heap0
  mem := fun b => match b with
    | .stack 0 => p.jwt.map cells
    | .stack 1 => p.verificationKey.map cells
    | .stack 2 => some (decCells p ⟨argAt 0 p.jwt, argAt 6 p.validateIss, argAt 7 p.validateSub, argAt 8 p.validateAud, argAt 9 p.validateJti,
        argAt 1 p.verificationKey, argAt 10 p.validateTyp, flagInt p.validateExp, flagInt p.validateNbf, flagInt p.validateIat⟩)
    | .stack 3 | .stack 4 | .stack 5 => some [.undef]
    | .stack 6 => p.validateIss.map cells
    | .stack 7 => p.validateSub.map cells
    | .stack 8 => p.validateAud.map cells
    | .stack 9 => p.validateJti.map cells
    | .stack 10 => p.validateTyp.map cells
    | _ => none
  stk := 11

/-- The numbers in the parameters fit into their members. -/
structure AskFits (p : DecParams) : Prop where
  alg : -2147483648 ≤ p.alg ∧ p.alg < 2147483648
  jwt : p.jwtLength < 2 ^ 64
  iss : p.validateIssLength < 2 ^ 64
  sub : p.validateSubLength < 2 ^ 64
  aud : p.validateAudLength < 2 ^ 64
  jti : p.validateJtiLength < 2 ^ 64
  key : p.verificationKeyLength < 2 ^ 64
  typ : p.validateTypLength < 4000
  size : ∀ m, p.jwt = some m → m.length < 1900

theorem pts_argAt {mem : Blk → Option (List Val)} {i : Nat} {m : Option Bytes} (h : mem (.stack i) = m.map cells) :
    Pts globs mem (nul (argAt i m)) m := by
  cases m with
  | none => rfl
  | some l =>
    refine ⟨.stack i, 0, cells l, rfl, h, Nat.zero_le _, ?_⟩
    rw [bytesFrom_cells, List.drop_zero]

theorem flagInt_ok (b : Bool) : (-2147483648 ≤ flagInt b ∧ flagInt b < 2147483648) ∧ b = decide (flagInt b ≠ 0) := by
  cases b <;> decide

theorem argAt_blk {α : Type} {i : Nat} {m : Option α} {b : Blk} (h : (argAt i m).blk = some b) : b = .stack i := by
  cases m with
  | none => cases h
  | some _ => exact (Option.some.inj h).symm

/-- For all parameters, this memory meets the conditions of the theorems about the text of decode.c. -/
theorem askCall (env : Env) {p : DecParams} (hf : AskFits p)
    (hg : ∀ i, -2147483648 ≤ (env.garbage i).end_ ∧ (env.garbage i).end_ < 2147483648) :
    DecCall env 4000 (askSt p) (.stack 2) p [some (.stack 3), some (.stack 4), some (.stack 5)] where
  wf := ⟨fun j hj => by
    have hj : 11 ≤ j := hj
    simp only [askSt]
    split <;> rename_i h <;> first | rfl | (injection h with h; omega), fun _ _ => rfl⟩
  heap := ⟨List.nodup_nil, by simp [askSt, heap0]⟩
  outs := ⟨fun b hb => by simp at hb; rcases hb with rfl | rfl | rfl <;> exact ⟨rfl, _, rfl⟩, by simp⟩
  params := by
    refine ⟨.stack 2, ⟨argAt 0 p.jwt, argAt 6 p.validateIss, argAt 7 p.validateSub, argAt 8 p.validateAud, argAt 9 p.validateJti,
        argAt 1 p.verificationKey, argAt 10 p.validateTyp, flagInt p.validateExp, flagInt p.validateNbf, flagInt p.validateIat⟩, rfl, ?_, ?_⟩
    · exact ⟨rfl, rfl, pts_argAt rfl, pts_argAt rfl, pts_argAt rfl, pts_argAt rfl, pts_argAt rfl, pts_argAt rfl, pts_argAt rfl, hf.alg, hf.jwt,
        hf.iss, hf.sub, hf.aud, hf.jti, hf.key, Nat.lt_trans hf.typ (by decide), flagInt_ok _, flagInt_ok _, flagInt_ok _⟩
    · intro b hb
      rcases hb with rfl | h | h | h | h | h | h | h
      all_goals first | (cases argAt_blk h; simp) | simp
  garbage := hg
  size := fun m hm => by
    have := hf.size m hm
    omega
  typ := hf.typ

/-- What the caller sees: return value, validation result, number of claims, number of live blocks. -/
structure Seen where
  rc : Val
  validation : Option (List Val)
  claims : Option (List Val)
  live : Nat
  deriving DecidableEq

/-- The claims in memory: key, value and type. -/
def readClaims (mem : Blk → Option (List Val)) (v : Val) : Nat → Option (List (List Val × List Val × Val))
  | 0 => some []
  | n + 1 => do
    let l ← readClaims mem v n
    match v with
    | .ptr (some (b, o)) =>
      let c ← mem b
      match c.drop (o.toNat + 5 * n) with
      | .ptr (some (k, 0)) :: .int kn :: .ptr (some (w, 0)) :: .int wn :: t :: _ => do
        let kc ← mem k
        let wc ← mem w
        some (l ++ [(kc.take kn.toNat, wc.take wn.toNat, t)])
      | _ => none
    | _ => none

/-- The claims handed out. -/
def claimsSeen (r : Except Err (Val × St)) : Option (List (List Val × List Val × Val)) :=
  match r with
  | .ok (.int 0, st) =>
    match st.mem (.stack 4), st.mem (.stack 5) with
    | some [v], some [.int n] => readClaims st.mem v n.toNat
    | _, _ => none
  | _ => none

/-- Execution of the text of `l8w8jwt_decode`. -/
def decodeText (p : DecParams) (env : Env := toy) (s : Sched := calm) : Except Err (Val × St) :=
  runFun (cx env 4000 3) Src.l8w8jwt_decode [exPtr 2 0, exPtr 3 0, exPtr 4 0, exPtr 5 0] s (askSt p)

/-- What the caller of `l8w8jwt_decode` sees. -/
def seen (r : Except Err (Val × St)) : Option Seen :=
  match r with
  | .ok x => some ⟨x.1, x.2.mem (.stack 3), x.2.mem (.stack 5), x.2.heap.live.length⟩
  | .error _ => none

/-- Why the execution stops, if it does. -/
def fault (r : Except Err (Val × St)) : Option Err :=
  match r with
  | .ok _ => none
  | .error e => some e

/-- What the model says about a run that is defined is what the text does. -/
theorem decodeText_run {env : Env} {p : DecParams} {s : Sched} (hf : AskFits p)
    (hg : ∀ i, -2147483648 ≤ (env.garbage i).end_ ∧ (env.garbage i).end_ < 2147483648) {r : DecOut} {h' : Heap}
    (hr : decode env (some p) false false false s heap0 = .ok (r, h')) :
    ∃ mem', decodeText p env s = .ok (.int r.rc, { askSt p with heap := h', mem := mem' }) ∧
      Decoded 4000 (askSt p) (some (.stack 3)) (some (.stack 4)) (some (.stack 5)) r h' mem' :=
  decode_text (d := 0) (askCall env hf hg) hr

/-- Return code, validation result, number of claims and of live blocks, according to the model. -/
def modelSeen (p : DecParams) (s : Sched := calm) : Option (Nat × Option VRes × Option Nat × Nat) :=
  match decode toy (some p) false false false s heap0 with
  | .ok (r, h) => some (r.rc, r.validation, r.claimsLength, h.live.length)
  | .error _ => none

/-- Are the numbers in bounds? -/
def fitsB (p : DecParams) : Bool :=
  decide (-2147483648 ≤ p.alg) && decide (p.alg < 2147483648) && decide (p.jwtLength < 2 ^ 64) && decide (p.validateIssLength < 2 ^ 64) &&
    decide (p.validateSubLength < 2 ^ 64) && decide (p.validateAudLength < 2 ^ 64) && decide (p.validateJtiLength < 2 ^ 64) &&
    decide (p.verificationKeyLength < 2 ^ 64) && decide (p.validateTypLength < 4000) && decide ((p.jwt.getD []).length < 1900)

theorem fitsB_ok {p : DecParams} (h : fitsB p = true) : AskFits p := by
  simp only [fitsB, Bool.and_eq_true, decide_eq_true_eq] at h
  obtain ⟨⟨⟨⟨⟨⟨⟨⟨⟨h1, h2⟩, h3⟩, h4⟩, h5⟩, h6⟩, h7⟩, h8⟩, h9⟩, h10⟩ := h
  exact ⟨⟨h1, h2⟩, h3, h4, h5, h6, h7, h8, h9, fun m hm => by rwa [hm] at h10⟩

/-- Success with this validation result, number of claims and of live blocks. -/
def accepted (v : VRes) (n k : Nat) : Option Seen := some ⟨.int 0, some [.int v.toNat], some [.int n], k⟩

/-- What is seen of a failure. -/
def failed (rc : Nat) (live : Nat) : Option Seen := some ⟨.int rc, some [.int 0xffffffff], some [.undef], live⟩

theorem seen_run {p : DecParams} {s : Sched} {rc : Nat} {v : VRes} {n : Option Nat} {k : Nat} (hf : fitsB p = true)
    (hm : modelSeen p s = some (rc, some v, n, k)) : ∃ st, decodeText p toy s = .ok (.int rc, st) ∧ st.mem (.stack 3) = some [.int v.toNat] ∧
      st.mem (.stack 5) = some [n.elim .undef fun n => .int n] ∧ st.heap.live.length = k := by
  unfold modelSeen at hm
  split at hm
  · rename_i r h' e
    simp only [Option.some.injEq, Prod.mk.injEq] at hm
    obtain ⟨rfl, hv, hn, rfl⟩ := hm
    obtain ⟨mem', he, D⟩ := decodeText_run (fitsB_ok hf) (fun _ => by simp [toy]) e
    have h1 := D.validation _ rfl
    have h3 := D.length _ rfl
    rw [hv] at h1
    rw [hn] at h3
    refine ⟨_, he, h1, h3.trans ?_, rfl⟩
    cases n <;> rfl
  · cases hm

/-- Executions of the text, from runs of the model. -/
theorem accepted_of {p : DecParams} {s : Sched} {v : VRes} {n k : Nat} (hf : fitsB p = true) (hm : modelSeen p s = some (0, some v, some n, k)) :
    seen (decodeText p toy s) = accepted v n k := by
  obtain ⟨st, e, h1, h2, h3⟩ := seen_run hf hm
  rw [e, seen, h1, h2, h3]
  rfl

theorem failed_of {p : DecParams} {s : Sched} {rc k : Nat} (hf : fitsB p = true) (hm : modelSeen p s = some (rc, some 0xffffffff#32, none, k)) :
    seen (decodeText p toy s) = failed rc k := by
  obtain ⟨st, e, h1, h2, h3⟩ := seen_run hf hm
  rw [e, seen, h1, h2, h3]
  rfl

/-- The claims of a token with this header and the payload `{}`. -/
def headerText (hdr : String) : Option (List (List Val × List Val × Val)) :=
  claimsSeen (decodeText (toyDec (mkTok hdr "{}" (List.replicate 32 65))))

/-- A claim as it is seen. -/
def seenClaim (k v : String) (t : Int) : List Val × List Val × Val := (cells (str k), cells (str v), .int t)

/-! ## Decoding -/

/-- A good token, executed by the kernel and by way of the model; and a changed one. -/
example : seen (decodeText (toyDec (mkTok hdr1 pay1 (toyMac hdr1 pay1)))) = accepted 0 2 5 := by decide +kernel
example : seen (decodeText (toyDec (mkTok hdr1 pay1 (toyMac hdr1 pay1)))) = accepted 0 2 5 ∧
    seen (decodeText (toyDec (mkTok hdr1 "{\"sub\":\"b\"}" (toyMac hdr1 pay1)))) = accepted 128 2 5 :=
  ⟨accepted_of (by decide +kernel) (by decide +kernel), accepted_of (by decide +kernel) (by decide +kernel)⟩

/-- **C82** (C28) With the algorithm that `l8w8jwt_decoding_params_init` sets, a token with the signature `xyz` is accepted as valid. -/
theorem C82_unverified_text : decodingParamsInit.alg = -2 ∧ seen (decodeText (toyDec (mkTok hdr1 pay1 (str "xyz")) (-2))) = accepted 0 2 5 :=
  ⟨rfl, accepted_of (by decide +kernel) (by decide +kernel)⟩

/-- **C82** (C29) Octets behind the MAC are ignored. (C69) So are characters that are not base64url. -/
theorem C82_spellings_text : seen (decodeText (toyDec (mkTok hdr1 pay1 (toyMac hdr1 pay1 ++ str "junk")))) = accepted 0 2 5 ∧
    seen (decodeText (toyDec (mkTok hdr1 pay1 (toyMac hdr1 pay1) ++ str "!!"))) = accepted 0 2 5 :=
  ⟨accepted_of (by decide +kernel) (by decide +kernel), accepted_of (by decide +kernel) (by decide +kernel)⟩

/-- **C82** (C47) With a signature of one octet, the comparison reads behind the block of the signature. -/
theorem C82_short_mac_text : fault (decodeText (toyDec (mkTok hdr1 pay1 [1]))) = some (.ub .oobRead) := by decide +kernel

/-- **C82** (C47) With an RSA key for ES256, a NULL pointer is dereferenced. -/
theorem C82_wrong_key_text : fault (decodeText { toyDec (mkTok hdr1 pay1 [1]) 9 with verificationKey := some (str "R"), verificationKeyLength := 1 }) =
    some (.ub .nullDeref) := by decide +kernel

/-- **C82** (C47) With `typ` outside of ASCII, `tolower` is called with a negative number (the signature is not valid). -/
theorem C82_typ_text : fault (decodeText { toyDec (mkTokB (str "{\"typ\":\"" ++ [195, 164] ++ str "\"}") (str pay1) (List.replicate 32 65)) with
    validateTyp := some (str "JWT" ++ [0]), validateTypLength := 3 }) = some (.ub .badCtype) := by decide +kernel

/-- **C82** (C48) With a key of 8192 octets, which the documentation allows, the parser of certificates is told to read behind the copy of the key. -/
theorem C82_key_text :
    fault (decodeText { toyDec (mkTok hdr1 pay1 (toyMac hdr1 pay1)) with
      verificationKey := some (str "-----BEGIN CERTIFICATE-----" ++ 0 :: List.replicate 8164 65), verificationKeyLength := 8192 }) = some (.ub .oobRead) := by
  decide +kernel

/-- **C82** (C49) A header of 65 JSON tokens with an unclosed bracket leaves a block behind; and if the array of claims cannot grow, the
two blocks of the claim that is lost stay allocated: 16 claims are handed out, but there are 35 blocks, as for 17 claims. -/
theorem C82_leak_text :
    seen (decodeText (toyDec (mkTokB leakJson (str pay1) (List.replicate 32 65)))) = failed L8W8JWT_DECODE_FAILED_INVALID_TOKEN_FORMAT 1 ∧
    seen (decodeText (toyDec (mkTokB (str hdr1) pay16 (List.replicate 32 65))) toy growFail) = accepted 128 16 35 ∧
    seen (decodeText (toyDec (mkTokB (str hdr1) pay16 (List.replicate 32 65)))) = accepted 128 17 35 :=
  ⟨failed_of (by decide +kernel) (by decide +kernel),
    accepted_of (by decide +kernel) (by decide +kernel), accepted_of (by decide +kernel) (by decide +kernel)⟩

/-- **C82** (C44) 64 JSON tokens: the parser reads behind the array. -/
theorem C82_slots_text : fault (decodeText (toyDec (mkTokB (fullJson 30) (str "{}") (List.replicate 32 65)))
    (toy.slack fun _ => ⟨.undefined, 0, 0⟩)) = some (.ub .oobRead) := by decide +kernel

/-- **C82** (C45) Claims are taken from behind the object, and a text that is not JSON is accepted. -/
theorem C82_json_text : headerText "{}\"a\":1" = some [seenClaim "a" "1" 1] ∧
    headerText ",{\"a\" 1 \"b\":2}" = some [seenClaim "a" "1" 1, seenClaim "b" "2" 1] := by
  constructor <;> decide +kernel

/-- **C82** (C46) `trueX` is a boolean. -/
theorem C82_boolean_text : headerText "{\"a\":trueX}" = some [seenClaim "a" "trueX" 3] := by decide +kernel

/-- **C82** (C33) `issuer` is taken for `iss`; `iss2` hides `iss`; `typ` is compared in its first characters only. -/
theorem C82_names_text : seen (decodeText (expectIss hdr1 "{\"issuer\":\"me\"}" "me")) = accepted 0 2 5 ∧
    seen (decodeText (expectIss hdr1 "{\"iss2\":\"x\",\"iss\":\"me\"}" "me")) = accepted 1 3 7 ∧
    seen (decodeText (expectTyp "{\"typ\":\"JWT-not\"}" pay1 "JWT" 3)) = accepted 0 2 5 ∧
    seen (decodeText (expectTyp "{\"typ\":\"JWT\"}" pay1 "JWT" 0)) = accepted 256 2 5 :=
  ⟨accepted_of (by decide +kernel) (by decide +kernel), accepted_of (by decide +kernel) (by decide +kernel),
    accepted_of (by decide +kernel) (by decide +kernel), accepted_of (by decide +kernel) (by decide +kernel)⟩

/-- **C82** (C35) At time 1000, a token that becomes valid at 10¹² is accepted, and one that expires at 10¹² is not. -/
theorem C82_times_text : seen (decodeText (checkTimes "{\"exp\":2000,\"nbf\":1e12,\"iat\":1}")) = accepted 0 4 9 ∧
    seen (decodeText (checkTimes "{\"exp\":1e12,\"nbf\":1,\"iat\":1}")) = accepted 16 4 9 :=
  ⟨accepted_of (by decide +kernel) (by decide +kernel), accepted_of (by decide +kernel) (by decide +kernel)⟩

/-- **C82** (C67) If growing the array of claims fails once, a token with the wrong issuer is accepted. (C60) If a claim cannot be allocated, the
token is reported to be malformed. -/
theorem C82_lowmem_text :
    seen (decodeText { toyDec (mkTok hdr1 twoIss (toyMac hdr1 twoIss)) with validateIss := some (str "me" ++ [0]) }) = accepted 1 18 37 ∧
    seen (decodeText { toyDec (mkTok hdr1 twoIss (toyMac hdr1 twoIss)) with validateIss := some (str "me" ++ [0]) } toy (growOnce 54)) = accepted 0 17 37 ∧
    seen (decodeText (toyDec (mkTok hdr1 pay1 (toyMac hdr1 pay1))) toy (oneFails 4)) = failed L8W8JWT_DECODE_FAILED_INVALID_TOKEN_FORMAT 0 :=
  ⟨accepted_of (by decide +kernel) (by decide +kernel), accepted_of (by decide +kernel) (by decide +kernel),
    failed_of (by decide +kernel) (by decide +kernel)⟩

/-! ## Encoding -/

/-- The members of the claims; the keys and values are the objects from number `i` on. -/
def claimCellsAt (i : Nat) : List Claim → List Val
  | [] => []
  | c :: cs => argAt i c.key :: .int c.keyLength :: argAt (i + 1) c.value :: .int c.valueLength :: .int c.type :: claimCellsAt (i + 2) cs

/-- The keys and values, as objects from number `i` on. -/
def claimObjs (i : Nat) (j : Nat) : List Claim → Option (List Val)
  | [] => none
  | c :: cs => if j = i then c.key.bytes.map cells else if j = i + 1 then c.value.bytes.map cells else claimObjs (i + 2) j cs

/-- Parameters for encoding, and what they refer to, in memory; the out arguments are objects 2 and 3. -/
def tellSt (p : EncParams) : St where
  fr := []
  heap := heap0
  mem := fun b => match b with
    | .stack 0 => p.secretKey.map cells
    | .stack 1 => some (encCells p ⟨argAt 4 p.iss, argAt 5 p.sub, argAt 6 p.aud, argAt 7 p.jti, argAt 8 p.headerClaims, argAt 9 p.payloadClaims,
        argAt 0 p.secretKey, .int 0, exPtr 2 0, exPtr 3 0⟩)
    | .stack 2 | .stack 3 => some [.undef]
    | .stack 4 => p.iss.bytes.map cells
    | .stack 5 => p.sub.bytes.map cells
    | .stack 6 => p.aud.bytes.map cells
    | .stack 7 => p.jti.bytes.map cells
    | .stack 8 => p.headerClaims.map (claimCellsAt 10)
    | .stack 9 => p.payloadClaims.map (claimCellsAt 20)
    | .stack j => if j < 20 then claimObjs 10 j (p.headerClaims.getD []) else claimObjs 20 j (p.payloadClaims.getD [])
    | _ => none
  stk := 40

/-- Execution of the text of `l8w8jwt_encode`. -/
def encodeText (p : EncParams) (s : Sched := calm) : Except Err (Val × St) :=
  runFun (cx toy 100000 3) Src.l8w8jwt_encode [exPtr 1 0] s (tellSt p)

/-- The block that is handed out on success. -/
def handedText (p : EncParams) (s : Sched := calm) : Option (List Val) :=
  match encodeText p s with
  | .ok (.int 0, st) =>
    match st.mem (.stack 2) with
    | some [.ptr (some (b, 0))] => st.mem b
    | _ => none
  | _ => none

/-- Are the numbers in bounds, and are there no claims? -/
def tellB (p : EncParams) : Bool :=
  decide (-2147483648 ≤ p.alg) && decide (p.alg < 2147483648) && decide (p.issLength < 2 ^ 64) && decide (p.subLength < 2 ^ 64) &&
    decide (p.audLength < 2 ^ 64) && decide (p.jtiLength < 2 ^ 64) && decide (-9223372036854775808 ≤ p.exp ∧ p.exp < 9223372036854775808) &&
    decide (-9223372036854775808 ≤ p.nbf ∧ p.nbf < 9223372036854775808) && decide (-9223372036854775808 ≤ p.iat ∧ p.iat < 9223372036854775808) &&
    decide (p.headerClaimsCount < 100000) && decide (p.payloadClaimsCount < 100000) && decide (p.secretKeyLength < 2 ^ 64) &&
    decide (p.secretKeyPwLength < 2 ^ 64) && decide (encBytes p < 100000) && p.headerClaims.isNone && p.payloadClaims.isNone && p.secretKeyPw.isNone &&
    !p.outNull && !p.outLengthNull

theorem pts_ptrAt {mem : Blk → Option (List Val)} {i : Nat} {q : Ptr} (h : mem (.stack i) = q.bytes.map cells) :
    Pts globs mem (nul (argAt i q)) q.bytes := by
  cases q with
  | none => rfl
  | some l =>
    refine ⟨.stack i, 0, cells l.mem, rfl, h, Nat.zero_le _, ?_⟩
    rw [bytesFrom_cells, List.drop_zero]

/-- For all parameters without claims, this memory meets the conditions of the theorems about the text of encode.c. -/
theorem tellCall {p : EncParams} (h : tellB p = true) :
    EncCall toy 100000 (tellSt p) (.stack 1) p ⟨argAt 4 p.iss, argAt 5 p.sub, argAt 6 p.aud, argAt 7 p.jti, argAt 8 p.headerClaims, argAt 9 p.payloadClaims,
        argAt 0 p.secretKey, .int 0, exPtr 2 0, exPtr 3 0⟩ (.stack 2) (.stack 3) := by
  simp only [tellB, Bool.and_eq_true, decide_eq_true_eq, Option.isNone_iff_eq_none, Bool.not_eq_true'] at h
  obtain ⟨⟨⟨⟨⟨⟨⟨⟨⟨⟨⟨⟨⟨⟨⟨⟨⟨⟨h1, h2⟩, h3⟩, h4⟩, h5⟩, h6⟩, h7⟩, h8⟩, h9⟩, h10⟩, h11⟩, h12⟩, h13⟩, h14⟩, h15⟩, h16⟩, h17⟩, h18⟩, h19⟩ := h
  constructor
  case wf =>
    refine ⟨fun j hj => ?_, fun _ _ => rfl⟩
    have hj : 40 ≤ j := hj
    simp only [tellSt]
    split <;> rename_i h <;> first | rfl | (injection h with h; omega) | skip
    injection h with h
    subst h
    rw [if_neg (by omega), h16]
    rfl
  case params =>
    refine ⟨rfl, rfl, pts_ptrAt rfl, pts_ptrAt rfl, pts_ptrAt rfl, pts_ptrAt rfl, by rw [h15]; rfl, by rw [h16]; rfl, pts_argAt rfl, by rw [h17]; rfl,
      ?_, ?_, ⟨h1, h2⟩, h3, h4, h5, h6, h7, h8, h9, Nat.lt_trans h10 (by decide), Nat.lt_trans h11 (by decide), h12, h13⟩
    · rw [h18]; exact ⟨0, .stack 2, 0, _, rfl, rfl, rfl, rfl⟩
    · rw [h19]; exact ⟨0, .stack 3, 0, _, rfl, rfl, rfl, rfl⟩
  case fits => exact ⟨h14, by omega, h10, h11⟩
  case out => rfl
  case outLength => rfl
  case outCell => exact ⟨_, rfl⟩
  case outLengthCell => exact ⟨_, rfl⟩
  case apart => simp

/-- Executions of the text, from runs of the model. -/
theorem handed_of {p : EncParams} {s : Sched} {m : Bytes} (hf : tellB p = true) (hm : tokenUnder s p = some m) : handedText p s = some (cells m) := by
  unfold tokenUnder at hm
  split at hm
  · rename_i b n h' e
    cases hm
    obtain ⟨mem', he, -, h1, -, h3⟩ := encode_text_call (d := 0) (tellCall hf) e
    have h1 : mem' (.stack 2) = some [ptrVal (some b)] := h1
    have h3 := (h3 b rfl).2
    have he : encodeText p s = .ok (.int ((0 : Nat) : Int), { tellSt p with heap := h', mem := mem' }) := he
    unfold handedText
    rw [he]
    show (match mem' (.stack 2) with | some [.ptr (some (b, 0))] => mem' b | _ => none) = _
    rw [h1]
    exact h3
  · cases hm

/-- A plain token, executed by the kernel and by way of the model. -/
example : handedText toyParams = (tokenOf toy toyParams).map cells ∧ (tokenOf toy toyParams).isSome := by decide +kernel
example : handedText toyParams = some (cells ((tokenOf toy toyParams).getD [])) := handed_of (by decide +kernel) (by decide +kernel)

/-- **C82** (C18) A count without claims gives a trailing comma in the header. -/
theorem C82_trailing_comma_text : handedText { toyParams with headerClaimsCount := 1 } =
    some (cells (mkTok "{\"alg\":\"HS256\",\"typ\":\"JWT\",}" "{}" (toyMac "{\"alg\":\"HS256\",\"typ\":\"JWT\",}" "{}") ++ [0])) :=
  handed_of (by decide +kernel) (by decide +kernel)

/-- **C82** (C20) With a length left to `strlen`, the comma between registered and additional claims is missing. -/
theorem C82_missing_comma_text : handedText badSep =
    some (cells (mkTok "{\"alg\":\"HS256\",\"typ\":\"JWT\"}" "{\"iss\":\"x\"\"a\":1}" (toyMac "{\"alg\":\"HS256\",\"typ\":\"JWT\"}" "{\"iss\":\"x\"\"a\":1}") ++ [0])) := by
  decide +kernel

/-- **C82** (C21) A negative time is written as an unsigned number. -/
theorem C82_negative_time_text : handedText { toyParams with exp := -1 } =
    some (cells (mkTok "{\"alg\":\"HS256\",\"typ\":\"JWT\"}" "{\"exp\":18446744073709551615}"
      (toyMac "{\"alg\":\"HS256\",\"typ\":\"JWT\"}" "{\"exp\":18446744073709551615}") ++ [0])) :=
  handed_of (by decide +kernel) (by decide +kernel)

/-- **C82** (C26) Success is reported for a token without signature, if growing the builder fails; for a signed token with a payload that
is cut off; and for a signed token that lacks the registered claims (issuer and expiry). -/
theorem C82_incomplete_text :
    handedText (longIss 729) { failAlloc := fun _ => false, failGrow := fun k => if k = 752 then some 0 else none } =
      some (cells (b64 true (writtenHeader (longIss 729) "HS256") ++ str "." ++ b64 true (writtenPayload (longIss 729)) ++ str "." ++ [0])) ∧
    (∃ sig, handedText (longIss 247) growFail =
      some (cells (b64 true (writtenHeader (longIss 247) "HS256") ++ str "." ++ b64 true (writtenPayload (longIss 247)).dropLast ++ str "." ++
        b64 true sig ++ [0])) ∧ sig.length = 32 ∧ (writtenPayload (longIss 247)).length = 257) ∧
    handedText oomParams { failAlloc := fun k => k == 7, failGrow := fun _ => none } =
      some (cells (mkTok "{\"alg\":\"HS256\",\"typ\":\"JWT\"}" "{}" (toyMac "{\"alg\":\"HS256\",\"typ\":\"JWT\"}" "{}") ++ [0])) := by
  refine ⟨handed_of (by decide +kernel) (by decide +kernel), ?_, handed_of (by decide +kernel) (by decide +kernel)⟩
  obtain ⟨sig, h1, h2, h3⟩ := C26_payload_cut_false
  exact ⟨sig, handed_of (by decide +kernel) h1, h2, h3⟩

/-- **C82** (C48) With a key of 8192 octets, the parser of keys is told to read 8193 octets of a buffer of 8192. -/
theorem C82_secret_text : fault (encodeText { toyParams with alg := 3, secretKey := some (List.replicate 8192 65), secretKeyLength := 8192 }) =
    some (.ub .oobRead) := by decide +kernel

/-- **C82** (C64) Where `char` is signed, a claim with a byte from 128 on is undefined behaviour. -/
theorem C82_high_byte_text : (fault (encodeText { toyParams with iss := some ⟨0, [195, 164, 0]⟩, issLength := 2 })).isSome = true := by decide +kernel

/-! ## Encoding and decoding -/

/-- **C82** (C40) A PS256 token for a key of 2049 bits does not verify with the same key. -/
theorem C82_pss_text : ∃ tok, handedText { toyParams with alg := 6, secretKey := some (str "S"), secretKeyLength := 1 } = some (cells (tok ++ [0])) ∧
    seen (decodeText { toyDec tok 6 with verificationKey := some (str "S"), verificationKeyLength := 1 }) = accepted 128 2 5 :=
  ⟨((tokenOf toy { toyParams with alg := 6, secretKey := some (str "S"), secretKeyLength := 1 }).getD []).dropLast,
    handed_of (by decide +kernel) (by decide +kernel), accepted_of (by decide +kernel) (by decide +kernel)⟩

/-- **C82** (C40) A token for an HMAC key that contains the first line of a certificate cannot be decoded with it. -/
theorem C82_hmac_key_text : ∃ tok,
    handedText { toyParams with secretKey := some (str "-----BEGIN CERTIFICATE-----" ++ [0]), secretKeyLength := 27 } = some (cells (tok ++ [0])) ∧
    seen (decodeText { toyDec tok with verificationKey := some (str "-----BEGIN CERTIFICATE-----" ++ [0]), verificationKeyLength := 27 }) =
      failed L8W8JWT_KEY_PARSE_FAILURE 0 :=
  ⟨((tokenOf toy { toyParams with secretKey := some (str "-----BEGIN CERTIFICATE-----" ++ [0]), secretKeyLength := 27 }).getD []).dropLast,
    handed_of (by decide +kernel) (by decide +kernel), failed_of (by decide +kernel) (by decide +kernel)⟩

/-- **C82** (C41) The issuer U+0001 comes back as the six characters of an escape sequence. -/
theorem C82_control_text : ∃ tok, handedText { toyParams with iss := some ⟨0, [1, 0]⟩, issLength := 1 } = some (cells (tok ++ [0])) ∧
    claimsSeen (decodeText (toyDec tok)) = some [seenClaim "alg" "HS256" 0, seenClaim "typ" "JWT" 0, seenClaim "iss" "\\u0001" 0] :=
  ⟨((tokenOf toy { toyParams with iss := some ⟨0, [1, 0]⟩, issLength := 1 }).getD []).dropLast,
    handed_of (by decide +kernel) (by decide +kernel), by decide +kernel⟩

end L8w8jwt.C
