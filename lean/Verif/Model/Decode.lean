import Verif.Model.Encode
/-!
# src/decode.c
-/

namespace L8w8jwt

/-- decode.h:100-229 `struct l8w8jwt_decoding_params`. `jwt` is the memory the pointer points into. -/
structure DecParams where
  jwt : Option Bytes := none
  jwtLength : Nat := 0
  alg : Int := 0
  validateIss : Option Bytes := none
  validateIssLength : Nat := 0
  validateSub : Option Bytes := none
  validateSubLength : Nat := 0
  validateAud : Option Bytes := none
  validateAudLength : Nat := 0
  validateJti : Option Bytes := none
  validateJtiLength : Nat := 0
  validateExp : Bool := false
  validateNbf : Bool := false
  validateIat : Bool := false
  expTolerance : UInt8 := 0
  nbfTolerance : UInt8 := 0
  iatTolerance : UInt8 := 0
  verificationKey : Option Bytes := none
  verificationKeyLength : Nat := 0
  validateTyp : Option Bytes := none
  validateTypLength : Nat := 0
  deriving DecidableEq, Repr

/-- decode.c:42-78 `md_info_from_alg`. -/
def decMd (alg : Int) : Option Md :=
  if alg = L8W8JWT_ALG_HS256 ∨ alg = L8W8JWT_ALG_RS256 ∨ alg = L8W8JWT_ALG_PS256 ∨ alg = L8W8JWT_ALG_ES256
    ∨ alg = L8W8JWT_ALG_ES256K then some .sha256
  else if alg = L8W8JWT_ALG_HS384 ∨ alg = L8W8JWT_ALG_RS384 ∨ alg = L8W8JWT_ALG_PS384
    ∨ alg = L8W8JWT_ALG_ES384 then some .sha384
  else if alg = L8W8JWT_ALG_HS512 ∨ alg = L8W8JWT_ALG_RS512 ∨ alg = L8W8JWT_ALG_PS512
    ∨ alg = L8W8JWT_ALG_ES512 ∨ alg = L8W8JWT_ALG_ED25519 then some .sha512
  else none

/-- decode.c:87-123: the character a two-character escape stands for; `none`: the backslash is copied. -/
def unescapeChar (c : UInt8) : Option UInt8 :=
  if c = 34 then some 34
  else if c = 92 then some 92
  else if c = 47 then some 47
  else if c = 98 then some 8
  else if c = 102 then some 12
  else if c = 110 then some 10
  else if c = 114 then some 13
  else if c = 116 then some 9
  else none

/-- decode.c:80-128 `l8w8jwt_unescape_string`: the bytes written to `out`, on the `n` input characters. -/
def unescapeString : Bytes → Bytes
  | [] => []
  | [c] => [c]
  | c :: d :: t =>
    if c = 92 then
      match unescapeChar d with
      | some e => e :: unescapeString t
      | none => c :: unescapeString (d :: t)
    else c :: unescapeString (d :: t)

/-- decode.c:130-163 `l8w8jwt_unescape_claim`: return code and the claim. `key`, `value`: memory at the two pointers. -/
def unescapeClaim (type : Int) (key : Bytes) (keyLength : Nat) (value : Bytes) (valueLength : Nat) :
    M (Nat × Option Claim) := do
  let k ← alloc (List.replicate (keyLength + 1) 0)
  let v ← alloc (List.replicate (valueLength + 1) 0)
  match k, v with
  | some kb, some vb => do
    let ks ← M.lift (rdN key keyLength)
    let ku := unescapeString ks
    let kmem ← M.lift (wrAt kb.mem 0 (ku ++ [0]))
    if type = L8W8JWT_CLAIM_TYPE_STRING then do
      let vs ← M.lift (rdN value valueLength)
      let vu := unescapeString vs
      let vmem ← M.lift (wrAt vb.mem 0 (vu ++ [0]))
      pure (L8W8JWT_SUCCESS, some { key := some { kb with mem := kmem }, keyLength := ku.length,
                                    value := some { vb with mem := vmem }, valueLength := vu.length, type := type })
    else do
      let vs ← M.lift (strncpy value valueLength)
      let vmem ← M.lift (wrAt vb.mem 0 (vs ++ [0]))
      pure (L8W8JWT_SUCCESS, some { key := some { kb with mem := kmem }, keyLength := ku.length,
                                    value := some { vb with mem := vmem }, valueLength := valueLength, type := type })
  | _, _ => do
    free k
    free v
    pure (L8W8JWT_OUT_OF_MEM, none)

/-- The outputs of `l8w8jwt_decode_segments`: return code, and the caller's variables `header`, `payload`, `signature`
and their lengths (initially NULL and 0). -/
structure Segs where
  rc : Nat
  header : Ptr := none
  headerLength : Nat := 0
  payload : Ptr := none
  payloadLength : Nat := 0
  signature : Ptr := none
  signatureLength : Nat := 0
  deriving DecidableEq, Repr

/-- decode.c:182-187, 201-206, 214-219: error code of a failed segment. -/
def segErr (rc : Nat) : Nat := if rc ≠ L8W8JWT_OUT_OF_MEM then L8W8JWT_BASE64_FAILURE else rc

/-- `a - b` on pointers converted to `size_t`. -/
def ptrDiff (a b : Nat) : Nat := (((a : Int) - (b : Int)) % 18446744073709551616).toNat

/-- decode.c:165-226 `l8w8jwt_decode_segments`. Positions are offsets from `params->jwt`. -/
def decodeSegments (p : DecParams) : M Segs := do
  let jwt ← M.lift (deref p.jwt)
  let next ← M.lift (strchr jwt 46)
  match next with
  | none => pure { rc := L8W8JWT_DECODE_FAILED_INVALID_TOKEN_FORMAT }
  | some d1 => do
    let h ← base64Decode true (some jwt) d1 false false
    if h.rc ≠ L8W8JWT_SUCCESS then
      pure { rc := segErr h.rc, header := h.out.getD none, headerLength := h.len.getD 0 }
    else do
      let cur := d1 + 1
      let next ← M.lift (strchr (jwt.drop cur) 46)
      if next.isNone ∧ p.alg ≠ -1 then
        pure { rc := L8W8JWT_DECODE_FAILED_MISSING_SIGNATURE, header := h.out.getD none, headerLength := h.len.getD 0 }
      else do
        let len := match next with
          | some k => k
          | none => ptrDiff p.jwtLength cur
        let b ← base64Decode true (some (jwt.drop cur)) len false false
        if b.rc ≠ L8W8JWT_SUCCESS then
          pure { rc := segErr b.rc, header := h.out.getD none, headerLength := h.len.getD 0,
                 payload := b.out.getD none, payloadLength := b.len.getD 0 }
        else match next with
          | none => pure { rc := L8W8JWT_SUCCESS, header := h.out.getD none, headerLength := h.len.getD 0,
                           payload := b.out.getD none, payloadLength := b.len.getD 0 }
          | some k => do
            let cur2 := cur + k + 1
            let s ← base64Decode true (some (jwt.drop cur2)) (ptrDiff p.jwtLength cur2) false false
            pure { rc := if s.rc ≠ L8W8JWT_SUCCESS then segErr s.rc else L8W8JWT_SUCCESS,
                   header := h.out.getD none, headerLength := h.len.getD 0,
                   payload := b.out.getD none, payloadLength := b.len.getD 0,
                   signature := s.out.getD none, signatureLength := s.len.getD 0 }

/-- `tokens[i]` for `i ≥ r` (slots not filled by the tokenizer): uninitialised, and outside the array if `i ≥ cap`. -/
def slackSlot (env : Env) (cap i : Nat) : Res Tok := if i < cap then .ok (env.garbage i) else .error .oobRead

/-- decode.c:295-298, 306-309: `while (tokens[i + 1].end <= value.end && i < r) ++i;` where `rest` are the tokens from
`i + 1` on. Result: the tokens from the final `i + 1` on. At the end of the tokens the loop reads slot `r`, and if that
one passes the test, increments once more and reads slot `r + 1`. -/
def skipNested (env : Env) (cap r : Nat) (vend : Int) : List Tok → Res (List Tok)
  | [] => do
    let g ← slackSlot env cap r
    if g.end_ ≤ vend then do
      let _ ← slackSlot env cap (r + 1)
      .ok []
    else .ok []
  | t :: ts => if t.end_ ≤ vend then skipNested env cap r vend ts else .ok (t :: ts)

/-- Pointer into the JSON text. -/
def at_ (json : Bytes) (i : Int) : Bytes := json.drop i.toNat

/-- decode.c:313-346: classification of a primitive; `none`: invalid. `cmp` calls `strncmp` on the text. -/
def primType (env : Env) (json : Bytes) (value : Tok) : Res (Option Int) := do
  let len := value.end_ - value.start
  let isBool ← (if len ≤ 5 then do
      let a ← strncmp (at_ json value.start) (str "true" ++ [0]) 4
      if a = 0 then .ok true
      else do
        let b ← strncmp (at_ json value.start) (str "false" ++ [0]) 5
        .ok (b = 0 : Bool)
    else .ok false : Res Bool)
  if isBool then .ok (some L8W8JWT_CLAIM_TYPE_BOOLEAN)
  else do
    let isNull ← (if len = 4 then do
        let a ← strncmp (at_ json value.start) (str "null" ++ [0]) 4
        .ok (a = 0 : Bool)
      else .ok false : Res Bool)
    if isNull then .ok (some L8W8JWT_CLAIM_TYPE_NULL)
    else do
      let text ← rdN (at_ json value.start) len.toNat
      if env.checknum text = 1 then .ok (some L8W8JWT_CLAIM_TYPE_INTEGER)
      else if env.checknum text = 2 then .ok (some L8W8JWT_CLAIM_TYPE_NUMBER)
      else .ok none

/-- decode.c:279-352: the switch: claim type (`none`: invalid) and the tokens that follow the value. -/
def claimType (env : Env) (json : Bytes) (cap r : Nat) (value : Tok) (rest : List Tok) : Res (Option Int × List Tok) :=
  match value.type with
  | .undefined => .ok (some L8W8JWT_CLAIM_TYPE_OTHER, rest)
  | .string => .ok (some L8W8JWT_CLAIM_TYPE_STRING, rest)
  | .object => do let rest ← skipNested env cap r value.end_ rest; .ok (some L8W8JWT_CLAIM_TYPE_OBJECT, rest)
  | .array => do let rest ← skipNested env cap r value.end_ rest; .ok (some L8W8JWT_CLAIM_TYPE_ARRAY, rest)
  | .primitive => do let t ← primType env json value; .ok (t, rest)
  | .other => .ok (none, rest)

/-- decode.c:266-362: the loop over the tokens (`toks` are the tokens from `i` on; each round takes at least two, so
`fuel = r` suffices). Result: return code and the claims pushed. -/
def claimsLoop (env : Env) (json : Bytes) (cap r : Nat) : Nat → List Tok → List Claim → M (Nat × List Claim)
  | 0, _, buf => pure (L8W8JWT_SUCCESS, buf)
  | _ + 1, [], buf => pure (L8W8JWT_SUCCESS, buf)
  | _ + 1, [_], buf => do
    let _ ← M.lift (slackSlot env cap r)
    pure (L8W8JWT_DECODE_FAILED_INVALID_TOKEN_FORMAT, buf)
  | fuel + 1, key :: value :: rest, buf =>
    if key.type ≠ .string then pure (L8W8JWT_DECODE_FAILED_INVALID_TOKEN_FORMAT, buf)
    else do
      let (type, rest) ← M.lift (claimType env json cap r value rest)
      match type with
      | none => pure (L8W8JWT_DECODE_FAILED_INVALID_TOKEN_FORMAT, buf)
      | some type => do
        let (ur, claim) ← unescapeClaim type (at_ json key.start) (ptrDiff key.end_.toNat key.start.toNat)
          (at_ json value.start) (ptrDiff value.end_.toNat value.start.toNat)
        match claim with
        | none => pure (ur, buf)
        | some claim => do
          let buf ← push 16 buf [claim]
          claimsLoop env json cap r fuel rest buf

/-- decode.c:252-370: from the second `jsmn_parse` on; `tokens` is the heap block of the token array (NULL stands for the
array on the stack). Line 257 returns without freeing it. -/
def parseWithTokens (env : Env) (buf : List Claim) (json text : Bytes) (r : Nat) (tokens : Ptr) : M (Nat × List Claim) :=
  match jsmnParse text r with
  | .error _ => pure (L8W8JWT_DECODE_FAILED_INVALID_TOKEN_FORMAT, buf)
  | .ok (r2, toks) =>
    match toks with
    | [] => M.lift (.error .oobRead)
    | t0 :: ts =>
      if t0.type ≠ .object then do
        free tokens
        pure (L8W8JWT_DECODE_FAILED_INVALID_TOKEN_FORMAT, buf)
      else do
        let res ← claimsLoop env json (if r ≤ 64 then 64 else r) r2 r2 ts buf
        free tokens
        pure res

/-- decode.c:228-371 `l8w8jwt_parse_claims`: return code and the claims buffer. -/
def parseClaims (env : Env) (buf : List Claim) (json : Ptr) (jsonLength : Nat) : M (Nat × List Claim) := do
  let json ← M.lift (deref json.bytes)
  let text ← M.lift (rdN json jsonLength)
  match jsmnCount text with
  | .error _ => pure (L8W8JWT_DECODE_FAILED_INVALID_TOKEN_FORMAT, buf)
  | .ok 0 => pure (L8W8JWT_SUCCESS, buf)
  | .ok (n + 1) =>
    if n + 1 ≤ 64 then parseWithTokens env buf json text (n + 1) none
    else do
      let tokens ← alloc []
      match tokens with
      | none => pure (L8W8JWT_OUT_OF_MEM, buf)
      | some _ => parseWithTokens env buf json text (n + 1) tokens

/-- `enum l8w8jwt_validation_result` (decode.h:45-95) as the 32 bits of the `unsigned` it is. -/
abbrev VRes := BitVec 32

/-- decode.h:49 -/ abbrev L8W8JWT_VALID : VRes := 0
/-- decode.h:54 -/ abbrev L8W8JWT_ISS_FAILURE : VRes := 1
/-- decode.h:59 -/ abbrev L8W8JWT_SUB_FAILURE : VRes := 2
/-- decode.h:64 -/ abbrev L8W8JWT_AUD_FAILURE : VRes := 4
/-- decode.h:69 -/ abbrev L8W8JWT_JTI_FAILURE : VRes := 8
/-- decode.h:74 -/ abbrev L8W8JWT_EXP_FAILURE : VRes := 16
/-- decode.h:79 -/ abbrev L8W8JWT_NBF_FAILURE : VRes := 32
/-- decode.h:84 -/ abbrev L8W8JWT_IAT_FAILURE : VRes := 64
/-- decode.h:89 -/ abbrev L8W8JWT_SIGNATURE_VERIFICATION_FAILURE : VRes := 128
/-- decode.h:94 -/ abbrev L8W8JWT_TYP_FAILURE : VRes := 256

/-- `l8w8jwt_get_claim(claims->array, claims->length, key, 3)`: the claim found. -/
def lookup (claims : List Claim) (key : String) : Res (Option Claim) := do
  let i ← getClaim (some claims) claims.length (some (str key ++ [0])) 3
  .ok (i.bind fun i => claims[i]?)

/-- decode.c:377-387 (and 389-399, 401-411, 413-423): validation of a string claim. -/
def checkStr (claims : List Claim) (key : String) (expected : Option Bytes) (expectedLength : Nat) (flag : VRes)
    (v : VRes) : Res VRes :=
  match expected with
  | none => .ok v
  | some e => do
    let c ← lookup claims key
    let n ← (if expectedLength ≠ 0 then .ok expectedLength else strlen e : Res Nat)
    match c with
    | none => .ok (v ||| flag)
    | some c =>
      if c.valueLength ≠ n then .ok (v ||| flag)
      else do
        let mem ← deref c.value.bytes
        let r ← strncmp mem e n
        .ok (if r ≠ 0 then v ||| flag else v)

/-- A `time_t` result: undefined on overflow. -/
def timeArith (t : Int) : Res Int := if llongMin ≤ t ∧ t ≤ llongMax then .ok t else .error .signedOverflow

/-- decode.c:427-434 (exp: `late = true`: fails if `ct - tolerance > value`), 436-443 and 445-452 (nbf, iat: fails if
`ct + tolerance < value`). -/
def checkTime (ct : Int) (claims : List Claim) (key : String) (enabled : Bool) (tolerance : UInt8) (late : Bool)
    (flag : VRes) (v : VRes) : Res VRes :=
  if !enabled then .ok v
  else do
    let c ← lookup claims key
    match c with
    | none => .ok (v ||| flag)
    | some c => do
      let t ← timeArith (if late then ct - tolerance.toNat else ct + tolerance.toNat)
      let mem ← deref c.value.bytes
      let x ← strtoll mem
      if (if late then t > x else t < x) then .ok (v ||| flag) else .ok v

/-- decode.c:454-461: validation of `typ`. -/
def checkTyp (env : Env) (claims : List Claim) (expected : Option Bytes) (n : Nat) (v : VRes) : Res VRes :=
  match expected with
  | none => .ok v
  | some e => do
    let c ← lookup claims "typ"
    match c with
    | none => .ok (v ||| L8W8JWT_TYP_FAILURE)
    | some c => do
      let r ← strncmpic env.charSigned c.value.bytes (some e) n
      .ok (if r ≠ 0 then v ||| L8W8JWT_TYP_FAILURE else v)

/-- decode.c:373-462 `l8w8jwt_validate_claims`. -/
def validateClaims (env : Env) (p : DecParams) (claims : List Claim) (v : VRes) : Res VRes := do
  let v ← checkStr claims "sub" p.validateSub p.validateSubLength L8W8JWT_SUB_FAILURE v
  let v ← checkStr claims "aud" p.validateAud p.validateAudLength L8W8JWT_AUD_FAILURE v
  let v ← checkStr claims "iss" p.validateIss p.validateIssLength L8W8JWT_ISS_FAILURE v
  let v ← checkStr claims "jti" p.validateJti p.validateJtiLength L8W8JWT_JTI_FAILURE v
  let v ← checkTime env.now claims "exp" p.validateExp p.expTolerance true L8W8JWT_EXP_FAILURE v
  let v ← checkTime env.now claims "nbf" p.validateNbf p.nbfTolerance false L8W8JWT_NBF_FAILURE v
  let v ← checkTime env.now claims "iat" p.validateIat p.iatTolerance false L8W8JWT_IAT_FAILURE v
  checkTyp env claims p.validateTyp p.validateTypLength v

/-- Outcome of verification: an error code, or whether the signature verified (`false`: the failure flag is set). -/
abbrev VerRes := Except Nat Bool

/-- decode.c:563-585. `signature_cmp` has 64 zero-initialised bytes. -/
def verifyHmac (c : Crypto) (alg : Int) (md : Md) (key : Bytes) (keyLength : Nat) (msg sig : Bytes) : Res VerRes := do
  let k ← rdN key (keyLength - 1)
  match c.hmac md k msg with
  | none => .ok (.ok false)
  | some h => do
    let ne ← memcmpNe sig (padTo 64 h) (32 + 16 * alg.toNat)
    .ok (.ok (!ne))

/-- decode.c:590-598, 613-621, 640-648: the parsed key: from the certificate, or from the key buffer. -/
def verificationPk (c : Crypto) (crt : Option c.PK) (key : Bytes) (keyLength : Nat) : Res (Option c.PK) :=
  match crt with
  | some pk => .ok (some pk)
  | none => do
    let k ← rdN key keyLength
    .ok (c.parsePublicKey k)

/-- decode.c:586-608. -/
def verifyRsa (c : Crypto) (md : Md) (crt : Option c.PK) (key : Bytes) (keyLength : Nat) (hash sig : Bytes)
    (sigLength : Nat) : Res VerRes := do
  let pk ← verificationPk c crt key keyLength
  match pk with
  | none => .ok (.error L8W8JWT_KEY_PARSE_FAILURE)
  | some pk => do
    let s ← rdN sig sigLength
    .ok (.ok (c.pkVerify pk md hash s))

/-- decode.c:609-634. `mbedtls_rsa_rsassa_pss_verify` reads as many signature bytes as the modulus has. -/
def verifyPss (c : Crypto) (md : Md) (crt : Option c.PK) (key : Bytes) (keyLength : Nat) (hash sig : Bytes) :
    Res VerRes := do
  let pk ← verificationPk c crt key keyLength
  match pk with
  | none => .ok (.error L8W8JWT_KEY_PARSE_FAILURE)
  | some pk =>
    if !c.isRsa pk then .error .nullDeref
    else do
      let s ← rdN sig (c.rsaLen pk)
      .ok (.ok (c.pssVerify pk md hash s))

/-- decode.c:635-684. -/
def verifyEcdsa (c : Crypto) (crt : Option c.PK) (key : Bytes) (keyLength : Nat) (hash sig : Bytes)
    (sigLength : Nat) : Res VerRes := do
  let pk ← verificationPk c crt key keyLength
  match pk with
  | none => .ok (.error L8W8JWT_KEY_PARSE_FAILURE)
  | some pk =>
    if !c.isEc pk then .error .nullDeref
    else if !c.ecOk pk then .ok (.error L8W8JWT_KEY_PARSE_FAILURE)
    else do
      let half := sigLength / 2
      let r ← rdN sig half
      let s ← rdN (sig.drop half) half
      .ok (.ok (c.ecdsaVerify pk hash (mpiRead r) (mpiRead s)))

/-- decode.c:685-713. `ed25519_verify` reads 64 signature bytes and 32 key bytes. -/
def verifyEd (env : Env) (key : Bytes) (keyLength : Nat) (msg sig : Bytes) : Res VerRes :=
  if !env.eddsa then .ok (.error L8W8JWT_UNSUPPORTED_ALG)
  else do
    let b ← rd key 64
    if keyLength ≠ 64 ∧ ¬(keyLength = 65 ∧ b = 0) then .ok (.error L8W8JWT_WRONG_KEY_TYPE)
    else do
      let h ← hexstr2bin env.charSigned (some key) keyLength (some 33) 33 true
      if h.rc ≠ 0 then .ok (.error L8W8JWT_WRONG_KEY_TYPE)
      else do
        let s ← rdN sig 64
        .ok (.ok (env.crypto.edVerify s msg ((padTo 33 h.written).take 32)))

/-- decode.c:499-510: certificate detection and parsing. `error`: parse failure; `ok none`: not a certificate. -/
def loadCrt (c : Crypto) (key : Bytes) (keyLength : Nat) : Res (Except Nat (Option c.PK)) := do
  let isCert ← strstrFound key (str "-----BEGIN CERTIFICATE-----")
  if isCert then do
    let k ← rdN key keyLength
    match c.parseCrt k with
    | none => .ok (.error L8W8JWT_KEY_PARSE_FAILURE)
    | some pk => .ok (.ok (some pk))
  else .ok (.ok none)

/-- decode.c:520-534: offset of the second dot in the token, or NULL. -/
def signatureDot (jwt : Bytes) : Res (Option Nat) := do
  let d1 ← strchr jwt 46
  match d1 with
  | none => .ok none
  | some d1 => do
    let d2 ← strchr (jwt.drop (d1 + 1)) 46
    .ok (d2.map fun d2 => d1 + 1 + d2)

/-- decode.c:536-559: algorithms for which the signing input is hashed first. -/
def hashedAlg (alg : Int) : Bool :=
  alg = L8W8JWT_ALG_ES256 || alg = L8W8JWT_ALG_ES384 || alg = L8W8JWT_ALG_ES512 || alg = L8W8JWT_ALG_RS256
    || alg = L8W8JWT_ALG_RS384 || alg = L8W8JWT_ALG_RS512 || alg = L8W8JWT_ALG_PS256 || alg = L8W8JWT_ALG_PS384
    || alg = L8W8JWT_ALG_PS512 || alg = L8W8JWT_ALG_ES256K

/-- decode.c:536-559: the hash buffer; `none`: hashing failed. `md_info` NULL makes `mbedtls_md` fail. -/
def verifyHash (c : Crypto) (alg : Int) (msg : Bytes) : Option Bytes :=
  if hashedAlg alg then
    match decMd alg with
    | none => none
    | some md => hashOf c md msg
  else some []

/-- decode.c:561-716: the switch over the algorithms. The default case accepts without any check. -/
def verifySwitch (env : Env) (alg : Int) (crt : Option env.crypto.PK) (key : Bytes) (keyLength : Nat)
    (msg hash sig : Bytes) (sigLength : Nat) : Res VerRes :=
  let c := env.crypto
  if alg = L8W8JWT_ALG_HS256 ∨ alg = L8W8JWT_ALG_HS384 ∨ alg = L8W8JWT_ALG_HS512 then do
    let md ← deref (decMd alg)
    verifyHmac c alg md key keyLength msg sig
  else if alg = L8W8JWT_ALG_RS256 ∨ alg = L8W8JWT_ALG_RS384 ∨ alg = L8W8JWT_ALG_RS512 then do
    let md ← deref (decMd alg)
    verifyRsa c md crt key keyLength hash sig sigLength
  else if alg = L8W8JWT_ALG_PS256 ∨ alg = L8W8JWT_ALG_PS384 ∨ alg = L8W8JWT_ALG_PS512 then do
    let md ← deref (decMd alg)
    verifyPss c md crt key keyLength hash sig
  else if alg = L8W8JWT_ALG_ES256 ∨ alg = L8W8JWT_ALG_ES256K ∨ alg = L8W8JWT_ALG_ES384
      ∨ alg = L8W8JWT_ALG_ES512 then
    verifyEcdsa c crt key keyLength hash sig sigLength
  else if alg = L8W8JWT_ALG_ED25519 then verifyEd env key keyLength msg sig
  else .ok (.ok true)

/-- decode.c:494-718: everything between the setup and the `exit` label. -/
def verifyBody (env : Env) (p : DecParams) (sig : Bytes) (sigLength : Nat) : Res VerRes := do
  let (key, keyLength) ← loadKey p.verificationKey p.verificationKeyLength
  let crt ← loadCrt env.crypto key keyLength
  match crt with
  | .error rc => .ok (.error rc)
  | .ok crt => do
    let jwt ← deref p.jwt
    let dot ← signatureDot jwt
    match dot with
    | none => .ok (.error L8W8JWT_DECODE_FAILED_INVALID_TOKEN_FORMAT)
    | some dot => do
      let msg ← rdN jwt dot
      match verifyHash env.crypto p.alg msg with
      | none => .ok (.error L8W8JWT_SHA2_FAILURE)
      | some hash => verifySwitch env p.alg crt key keyLength msg hash sig sigLength

/-- decode.c:464-737 `l8w8jwt_verify_signature`: return code and the new validation result. With
`L8W8JWT_SMALL_STACK` the key buffer is a heap block; line 721 clears it even if its allocation failed. -/
def verifySignature (env : Env) (p : DecParams) (v : VRes) (signature : Ptr) (sigLength : Nat) : M (Nat × VRes) :=
  if p.alg = -1 ∨ signature.isNone ∨ sigLength = 0 then pure (L8W8JWT_SUCCESS, v)
  else
    let fin (r : VerRes) : Nat × VRes := match r with
      | .error rc => (rc, v)
      | .ok true => (L8W8JWT_SUCCESS, v)
      | .ok false => (L8W8JWT_SUCCESS, v ||| L8W8JWT_SIGNATURE_VERIFICATION_FAILURE)
    do
      let sig ← M.lift (deref signature.bytes)
      if env.smallStack then do
        let key ← alloc (List.replicate L8W8JWT_MAX_KEY_SIZE 0)
        let r ← (if key.isNone then pure (.error L8W8JWT_OUT_OF_MEM) else M.lift (verifyBody env p sig sigLength) : M VerRes)
        M.lift (zeroize key L8W8JWT_MAX_KEY_SIZE)
        free key
        pure (fin r)
      else do
        let r ← M.lift (verifyBody env p sig sigLength)
        pure (fin r)

/-- decode.c:739-747 `l8w8jwt_decoding_params_init`: the struct afterwards. -/
def decodingParamsInit : DecParams := { alg := -2 }

/-- decode.c:749-769 `l8w8jwt_validate_decoding_params`. -/
def validateDecodingParams (env : Env) (params : Option DecParams) : Nat :=
  match params with
  | none => L8W8JWT_NULL_ARG
  | some p =>
    if p.jwt.isNone || p.verificationKey.isNone then L8W8JWT_NULL_ARG
    else if p.jwtLength = 0 || p.verificationKeyLength = 0 || L8W8JWT_MAX_KEY_SIZE < p.verificationKeyLength then
      L8W8JWT_INVALID_ARG
    else if !env.eddsa && p.alg = L8W8JWT_ALG_ED25519 then L8W8JWT_UNSUPPORTED_ALG
    else L8W8JWT_SUCCESS

/-- What `l8w8jwt_decode` leaves behind (`none`: not written). -/
structure DecOut where
  rc : Nat
  validation : Option VRes := none
  claims : Option ClaimArr := none
  claimsLength : Option Nat := none
  deriving DecidableEq, Repr

/-- State of `l8w8jwt_decode` when it reaches the `exit` label: return code, the three buffers, the claims. -/
structure DecState where
  rc : Nat
  segs : Segs
  claims : ClaimArr
  validation : VRes
  deriving DecidableEq, Repr

/-- decode.c:802-845: from `chillbuff_init` to the `exit` label. `validation` is the value of `*out_validation_result`. -/
def decodeBody (env : Env) (p : DecParams) : M DecState := do
  let blk ← alloc []
  match blk with
  | none => pure ⟨L8W8JWT_OUT_OF_MEM, { rc := 0 }, ⟨none, []⟩, ~~~L8W8JWT_VALID⟩
  | some _ => do
    let s ← decodeSegments p
    if s.rc ≠ L8W8JWT_SUCCESS then pure ⟨s.rc, s, ⟨blk, []⟩, ~~~L8W8JWT_VALID⟩
    else do
      let (r, v) ← verifySignature env p L8W8JWT_VALID s.signature s.signatureLength
      if r ≠ L8W8JWT_SUCCESS then pure ⟨r, s, ⟨blk, []⟩, ~~~L8W8JWT_VALID⟩
      else do
        let (r, cs) ← parseClaims env [] s.header s.headerLength
        if r ≠ L8W8JWT_SUCCESS then
          pure ⟨L8W8JWT_DECODE_FAILED_INVALID_TOKEN_FORMAT, s, ⟨blk, cs⟩, ~~~L8W8JWT_VALID⟩
        else do
          let (r, cs) ← parseClaims env cs s.payload s.payloadLength
          if r ≠ L8W8JWT_SUCCESS then
            pure ⟨L8W8JWT_DECODE_FAILED_INVALID_TOKEN_FORMAT, s, ⟨blk, cs⟩, ~~~L8W8JWT_VALID⟩
          else do
            let v ← M.lift (validateClaims env p cs v)
            pure ⟨L8W8JWT_SUCCESS, s, ⟨blk, cs⟩, v⟩

/-- decode.c:771-858 `l8w8jwt_decode`. `outClaimsNull`, `outClaimsLengthNull`, `outValNull`: NULL out pointers. -/
def decode (env : Env) (params : Option DecParams) (outValNull outClaimsNull outClaimsLengthNull : Bool) : M DecOut :=
  match params with
  | none => pure { rc := L8W8JWT_NULL_ARG }
  | some p =>
    if !outClaimsNull && outClaimsLengthNull then pure { rc := L8W8JWT_NULL_ARG }
    else if validateDecodingParams env params ≠ L8W8JWT_SUCCESS then pure { rc := validateDecodingParams env params }
    else if outValNull then pure { rc := L8W8JWT_NULL_ARG }
    else do
      let st ← decodeBody env p
      free st.segs.header
      free st.segs.payload
      free st.segs.signature
      if outClaimsNull || st.rc ≠ L8W8JWT_SUCCESS then do
        freeClaims st.claims st.claims.items.length
        pure { rc := st.rc, validation := some st.validation }
      else
        pure { rc := st.rc, validation := some st.validation, claims := some st.claims,
               claimsLength := some st.claims.items.length }

/-- What the raw functions leave behind (`none`: not written). -/
structure RawOut where
  rc : Nat
  validation : Option VRes := none
  header : Option (Ptr × Nat) := none
  payload : Option (Ptr × Nat) := none
  signature : Option (Ptr × Nat) := none
  deriving DecidableEq, Repr

/-- decode.c:937-945 and the five similar places: hand a buffer to the caller, or free it. -/
def giveOrFree (outNull : Bool) (p : Ptr) (len : Nat) : M (Option (Ptr × Nat)) :=
  if outNull then do
    free p
    pure none
  else pure (some (p, len))

/-- Which out pointers of the raw functions are NULL. -/
structure RawArgs where
  header : Bool := false
  headerLength : Bool := false
  payload : Bool := false
  payloadLength : Bool := false
  signature : Bool := false
  signatureLength : Bool := false
  deriving DecidableEq, Repr

/-- decode.c:868-872, 980-984: an out pointer without its length pointer. -/
def RawArgs.bad (a : RawArgs) : Bool :=
  (!a.header && a.headerLength) || (!a.payload && a.payloadLength) || (!a.signature && a.signatureLength)

/-- decode.c:897-934: from `chillbuff_init` to the `exit` label of `l8w8jwt_decode_raw`. -/
def decodeRawBody (env : Env) (p : DecParams) : M DecState := do
  let blk ← alloc []
  match blk with
  | none => pure ⟨L8W8JWT_OUT_OF_MEM, { rc := 0 }, ⟨none, []⟩, ~~~L8W8JWT_VALID⟩
  | some _ => do
    let s ← decodeSegments p
    if s.rc ≠ L8W8JWT_SUCCESS then pure ⟨s.rc, s, ⟨blk, []⟩, ~~~L8W8JWT_VALID⟩
    else do
      let (r, v) ← verifySignature env p L8W8JWT_VALID s.signature s.signatureLength
      if r ≠ L8W8JWT_SUCCESS then pure ⟨r, s, ⟨blk, []⟩, ~~~L8W8JWT_VALID⟩
      else do
        let (r, cs) ← parseClaims env [] s.header s.headerLength
        if r ≠ L8W8JWT_SUCCESS then
          pure ⟨L8W8JWT_DECODE_FAILED_INVALID_TOKEN_FORMAT, s, ⟨blk, cs⟩, ~~~L8W8JWT_VALID⟩
        else do
          let (r, cs) ← parseClaims env cs s.payload s.payloadLength
          if r ≠ L8W8JWT_SUCCESS then
            pure ⟨L8W8JWT_DECODE_FAILED_INVALID_TOKEN_FORMAT, s, ⟨blk, cs⟩, ~~~L8W8JWT_VALID⟩
          else do
            let v ← M.lift (validateClaims env p cs v)
            pure ⟨L8W8JWT_SUCCESS, s, ⟨blk, cs⟩, v⟩

/-- decode.c:860-970 `l8w8jwt_decode_raw`. -/
def decodeRaw (env : Env) (params : Option DecParams) (outValNull : Bool) (a : RawArgs) : M RawOut :=
  match params with
  | none => pure { rc := L8W8JWT_NULL_ARG }
  | some p =>
    if outValNull || a.bad then pure { rc := L8W8JWT_NULL_ARG }
    else if validateDecodingParams env params ≠ L8W8JWT_SUCCESS then pure { rc := validateDecodingParams env params }
    else do
      let st ← decodeRawBody env p
      let h ← giveOrFree a.header st.segs.header st.segs.headerLength
      let b ← giveOrFree a.payload st.segs.payload st.segs.payloadLength
      let s ← giveOrFree a.signature st.segs.signature st.segs.signatureLength
      freeClaims st.claims st.claims.items.length
      pure { rc := st.rc, validation := some st.validation, header := h, payload := b, signature := s }

/-- decode.c:972-1045 `l8w8jwt_decode_raw_no_validation`. -/
def decodeRawNoValidation (env : Env) (params : Option DecParams) (a : RawArgs) : M RawOut :=
  match params with
  | none => pure { rc := L8W8JWT_NULL_ARG }
  | some p =>
    if (a.header && a.payload && a.signature) || a.bad then pure { rc := L8W8JWT_NULL_ARG }
    else if validateDecodingParams env params ≠ L8W8JWT_SUCCESS then pure { rc := validateDecodingParams env params }
    else do
      let st ← decodeSegments p
      let h ← giveOrFree a.header st.header st.headerLength
      let b ← giveOrFree a.payload st.payload st.payloadLength
      let s ← giveOrFree a.signature st.signature st.signatureLength
      pure { rc := st.rc, header := h, payload := b, signature := s }

end L8w8jwt
