import Verif.Model.Env
import Verif.Model.Base64
import Verif.Model.Claim
import Verif.Model.Util
/-!
# src/encode.c
-/

namespace L8w8jwt

/-- encode.h:44-178 `struct l8w8jwt_encoding_params`. Strings, keys and claim arrays are pointers (`none` = NULL) to
caller memory; `outNull`, `outLengthNull`: the out pointers are NULL. -/
structure EncParams where
  alg : Int := 0
  iss : Ptr := none
  issLength : Nat := 0
  sub : Ptr := none
  subLength : Nat := 0
  aud : Ptr := none
  audLength : Nat := 0
  jti : Ptr := none
  jtiLength : Nat := 0
  exp : Int := 0
  nbf : Int := 0
  iat : Int := 0
  headerClaims : Option (List Claim) := none
  headerClaimsCount : Nat := 0
  payloadClaims : Option (List Claim) := none
  payloadClaimsCount : Nat := 0
  secretKey : Option Bytes := none
  secretKeyLength : Nat := 0
  secretKeyPw : Option Bytes := none
  secretKeyPwLength : Nat := 0
  outNull : Bool := true
  outLengthNull : Bool := true
  deriving DecidableEq, Repr

/-- encode.c:37-72 `md_info_from_alg` (`none`: the outputs keep their initial values, `md_info` is NULL). -/
def encMd (alg : Int) : Option Md :=
  if alg = L8W8JWT_ALG_HS256 ∨ alg = L8W8JWT_ALG_RS256 ∨ alg = L8W8JWT_ALG_PS256 ∨ alg = L8W8JWT_ALG_ES256
    ∨ alg = L8W8JWT_ALG_ES256K then some .sha256
  else if alg = L8W8JWT_ALG_HS384 ∨ alg = L8W8JWT_ALG_RS384 ∨ alg = L8W8JWT_ALG_PS384
    ∨ alg = L8W8JWT_ALG_ES384 then some .sha384
  else if alg = L8W8JWT_ALG_HS512 ∨ alg = L8W8JWT_ALG_RS512 ∨ alg = L8W8JWT_ALG_PS512
    ∨ alg = L8W8JWT_ALG_ES512 then some .sha512
  else none

/-- encode.c:86-133: the string literal and the element count passed to `chillbuff_push_back`; `none`: unknown `alg`. -/
def headerPrefix (alg : Int) : Option (Bytes × Nat) :=
  if alg = L8W8JWT_ALG_HS256 then some (str "{\"alg\":\"HS256\",\"typ\":\"JWT\"", 26)
  else if alg = L8W8JWT_ALG_HS384 then some (str "{\"alg\":\"HS384\",\"typ\":\"JWT\"", 26)
  else if alg = L8W8JWT_ALG_HS512 then some (str "{\"alg\":\"HS512\",\"typ\":\"JWT\"", 26)
  else if alg = L8W8JWT_ALG_RS256 then some (str "{\"alg\":\"RS256\",\"typ\":\"JWT\"", 26)
  else if alg = L8W8JWT_ALG_RS384 then some (str "{\"alg\":\"RS384\",\"typ\":\"JWT\"", 26)
  else if alg = L8W8JWT_ALG_RS512 then some (str "{\"alg\":\"RS512\",\"typ\":\"JWT\"", 26)
  else if alg = L8W8JWT_ALG_PS256 then some (str "{\"alg\":\"PS256\",\"typ\":\"JWT\"", 26)
  else if alg = L8W8JWT_ALG_PS384 then some (str "{\"alg\":\"PS384\",\"typ\":\"JWT\"", 26)
  else if alg = L8W8JWT_ALG_PS512 then some (str "{\"alg\":\"PS512\",\"typ\":\"JWT\"", 26)
  else if alg = L8W8JWT_ALG_ES256 then some (str "{\"alg\":\"ES256\",\"typ\":\"JWT\"", 26)
  else if alg = L8W8JWT_ALG_ES384 then some (str "{\"alg\":\"ES384\",\"typ\":\"JWT\"", 26)
  else if alg = L8W8JWT_ALG_ES512 then some (str "{\"alg\":\"ES512\",\"typ\":\"JWT\"", 26)
  else if alg = L8W8JWT_ALG_ES256K then
    some (str "{\"alg\":\"ES256K\",\"typ\":\"JWT\",\"kty\":\"EC\",\"crv\":\"secp256k1\"", 56)
  else if alg = L8W8JWT_ALG_ED25519 then
    some (str "{\"alg\":\"EdDSA\",\"typ\":\"JWT\",\"kty\":\"EC\",\"crv\":\"Ed25519\"", 53)
  else none

/-- `(uint64_t)t` for a `time_t`. -/
def toU64 (t : Int) : Nat := (t % 18446744073709551616).toNat

/-- encode.c:162-175: one of the three `if (params->t) snprintf(iatnbfexp + off, 21, ..)`. -/
def putTime (buf : Bytes) (off : Nat) (t : Int) : Res Bytes :=
  if t ≠ 0 then wrAt buf off (snprintfU64 21 (toU64 t)) else .ok buf

/-- A string literal in memory. -/
def lit (s : String) : Ptr := some ⟨0, str s ++ [0]⟩

/-- encode.c:179-181: a time claim; the key is NULL if the first byte of its field is NUL. -/
def timeClaim (key : String) (buf : Bytes) (off : Nat) : Res Claim := do
  let b ← rd buf off
  .ok { key := if b ≠ 0 then lit key else none, keyLength := 3, value := some ⟨0, buf.drop off⟩, valueLength := 0,
        type := L8W8JWT_CLAIM_TYPE_INTEGER }

/-- encode.c:182-185: a string claim; the key is NULL if the value is. -/
def strClaim (key : String) (value : Ptr) (valueLength : Nat) : Claim :=
  { key := if value.isSome then lit key else none, keyLength := 3, value := value, valueLength := valueLength,
    type := L8W8JWT_CLAIM_TYPE_STRING }

/-- encode.c:160-186: the array of the seven registered claims. -/
def registeredClaims (p : EncParams) : Res (List Claim) := do
  let buf ← putTime (List.replicate 64 0) 0 p.iat
  let buf ← putTime buf 21 p.nbf
  let buf ← putTime buf 42 p.exp
  let iat ← timeClaim "iat" buf 0
  let nbf ← timeClaim "nbf" buf 21
  let exp ← timeClaim "exp" buf 42
  .ok [iat, nbf, exp, strClaim "sub" p.sub p.subLength, strClaim "iss" p.iss p.issLength,
       strClaim "aud" p.aud p.audLength, strClaim "jti" p.jti p.jtiLength]

/-- `l8w8jwt_write_claims(&buff, ..)` with its return value ignored (encode.c:138,190,197). -/
def writeClaimsIgnore (env : Env) (buf : Bytes) (claims : Option (List Claim)) (count : Nat) : M Bytes := do
  let r ← writeClaims 256 env.charSigned (some buf) claims count
  pure (r.2.getD buf)

/-- encode.c:135-141: the header text after the prefix `buf`. -/
def headerText (env : Env) (p : EncParams) (buf : Bytes) : M Bytes := do
  let buf ← (if 0 < p.headerClaimsCount then do
      let buf ← push 256 buf (str ",")
      writeClaimsIgnore env buf p.headerClaims p.headerClaimsCount
    else pure buf : M Bytes)
  push 256 buf (str "}")

/-- encode.c:160-200: the payload text. -/
def payloadText (env : Env) (p : EncParams) : M Bytes := do
  let claims ← M.lift (registeredClaims p)
  let buf ← push 256 [] (str "{")
  let buf ← writeClaimsIgnore env buf (some claims) 7
  let buf ← (if 0 < p.payloadClaimsCount then do
      let buf ← (if p.iat ≠ 0 ∨ p.exp ≠ 0 ∨ p.nbf ≠ 0 ∨ p.issLength ≠ 0 ∨ p.subLength ≠ 0 ∨ p.jtiLength ≠ 0
          ∨ p.audLength ≠ 0 then push 256 buf (str ",") else pure buf : M Bytes)
      writeClaimsIgnore env buf p.payloadClaims p.payloadClaimsCount
    else pure buf : M Bytes)
  push 256 buf (str "}")

/-- encode.c:75-216 `write_header_and_payload`: return code and new content of the string builder. -/
def writeHeaderAndPayload (env : Env) (sb : Bytes) (p : EncParams) : M (Nat × Bytes) := do
  let blk ← alloc []
  match blk with
  | none => pure (L8W8JWT_OUT_OF_MEM, sb)
  | some _ =>
    match headerPrefix p.alg with
    | none => do
      free blk
      pure (L8W8JWT_INVALID_ARG, sb)
    | some (lit, n) => do
      let pre ← M.lift (rdN lit n)
      let buf ← push 256 [] pre
      let buf ← headerText env p buf
      let seg ← base64Encode true (some buf) buf.length false false
      if seg.rc ≠ L8W8JWT_SUCCESS then do
        free blk
        pure (seg.rc, sb)
      else do
        let ptr := seg.out.getD none
        let mem ← M.lift (deref ptr.bytes)
        let text ← M.lift (rdN mem (seg.len.getD 0))
        let sb ← push 1024 sb text
        free ptr
        let buf ← payloadText env p
        let seg ← base64Encode true (some buf) buf.length false false
        if seg.rc ≠ L8W8JWT_SUCCESS then do
          free blk
          pure (seg.rc, sb)
        else do
          let ptr := seg.out.getD none
          let mem ← M.lift (deref ptr.bytes)
          let text ← M.lift (rdN mem (seg.len.getD 0))
          let sb ← push 1024 sb (str ".")
          let sb ← push 1024 sb text
          free ptr
          free blk
          pure (L8W8JWT_SUCCESS, sb)

/-- encode.c:250, decode.c:495 and the `+= key[key_length - 1] != '\0'` after it: the key buffer and the new
`key_length`. The buffer has `L8W8JWT_MAX_KEY_SIZE` zero-initialised bytes. -/
def loadKey (key : Option Bytes) (n : Nat) : Res (Bytes × Nat) := do
  let mem ← deref key
  let k ← rdN mem n
  let buf ← wrAt (List.replicate L8W8JWT_MAX_KEY_SIZE 0) 0 k
  let last ← rd buf (n - 1)
  .ok (buf, if last ≠ 0 then n + 1 else n)

/-- `mbedtls_mpi_write_binary(x, buf, n)`: big-endian with leading zeros; `none` if it does not fit. -/
def mpiWrite (x n : Nat) : Option Bytes :=
  if x < 256 ^ n then some ((List.range n).map fun i => UInt8.ofNat (x / 256 ^ (n - 1 - i))) else none

/-- `mbedtls_mpi_read_binary`. -/
def mpiRead (b : Bytes) : Nat := b.foldl (fun a c => a * 256 + c.toNat) 0

/-- Outcome of the algorithm-specific part: the signature bytes, or an error code. -/
abbrev SigRes := Except Nat Bytes

/-- The hash buffer `hash[64]` after `mbedtls_md`, of which `md_length` bytes are used. -/
def hashOf (c : Crypto) (m : Md) (msg : Bytes) : Option Bytes := (c.md m msg).map fun h => (padTo 64 h).take m.len

/-- The password argument of `mbedtls_pk_parse_key`. -/
def pwArg (pw : Option Bytes) (n : Nat) : Res (Option Bytes) :=
  match pw with
  | none => .ok none
  | some mem => do let b ← rdN mem n; .ok (some b)

/-- encode.c:276-295. `signature_bytes` has 4096 zero-initialised bytes. -/
def signHmac (c : Crypto) (alg : Int) (md : Md) (key : Bytes) (keyLength : Nat) (msg : Bytes) : Res SigRes := do
  let k ← rdN key (keyLength - 1)
  match c.hmac md k msg with
  | none => .ok (.error L8W8JWT_SIGNATURE_CREATION_FAILURE)
  | some h => .ok (.ok ((padTo 4096 h).take (32 + 16 * alg.toNat)))

/-- encode.c:296-340. `mbedtls_pk_sign` honours the buffer size 4096. -/
def signRsa (c : Crypto) (md : Md) (key : Bytes) (keyLength : Nat) (pw : Option Bytes) (msg : Bytes) : Res SigRes := do
  let k ← rdN key keyLength
  match c.parseKey k pw with
  | none => .ok (.error L8W8JWT_KEY_PARSE_FAILURE)
  | some pk =>
    if !c.canRsa pk then .ok (.error L8W8JWT_WRONG_KEY_TYPE)
    else if c.bitlen pk < 2048 then .ok (.error L8W8JWT_WRONG_KEY_TYPE)
    else match hashOf c md msg with
      | none => .ok (.error L8W8JWT_SHA2_FAILURE)
      | some hash =>
        match c.pkSign pk md hash with
        | none => .ok (.error L8W8JWT_SIGNATURE_CREATION_FAILURE)
        | some sig => if 4096 < sig.length then .ok (.error L8W8JWT_SIGNATURE_CREATION_FAILURE) else .ok (.ok sig)

/-- encode.c:341-383. The PSS function writes the whole signature; `bitlen / 8` bytes of it are used. -/
def signPss (c : Crypto) (md : Md) (key : Bytes) (keyLength : Nat) (pw : Option Bytes) (msg : Bytes) : Res SigRes := do
  let k ← rdN key keyLength
  match c.parseKey k pw with
  | none => .ok (.error L8W8JWT_KEY_PARSE_FAILURE)
  | some pk =>
    if !c.canPss pk then .ok (.error L8W8JWT_WRONG_KEY_TYPE)
    else if c.bitlen pk < 2048 then .ok (.error L8W8JWT_WRONG_KEY_TYPE)
    else match hashOf c md msg with
      | none => .ok (.error L8W8JWT_SHA2_FAILURE)
      | some hash =>
        if !c.isRsa pk then .error .nullDeref
        else match c.pssSign pk md hash with
          | none => .ok (.error L8W8JWT_SIGNATURE_CREATION_FAILURE)
          | some sig => do
            let buf ← wrAt (List.replicate 4096 0) 0 sig
            let s ← rdN buf (c.bitlen pk / 8)
            .ok (.ok s)

/-- encode.c:424-476: required curve, `signature_bytes_length` and bit length. -/
def ecReq (alg : Int) : Option (Curve × Nat × Nat) :=
  if alg = L8W8JWT_ALG_ES256 then some (.secp256r1, 64, 256)
  else if alg = L8W8JWT_ALG_ES256K then some (.secp256k1, 64, 256)
  else if alg = L8W8JWT_ALG_ES384 then some (.secp384r1, 96, 384)
  else if alg = L8W8JWT_ALG_ES512 then some (.secp521r1, 132, 521)
  else none

/-- encode.c:384-522. -/
def signEcdsa (c : Crypto) (alg : Int) (md : Md) (key : Bytes) (keyLength : Nat) (pw : Option Bytes) (msg : Bytes) :
    Res SigRes := do
  let k ← rdN key keyLength
  match c.parseKey k pw with
  | none => .ok (.error L8W8JWT_KEY_PARSE_FAILURE)
  | some pk =>
    if !c.canEcdsa pk then .ok (.error L8W8JWT_WRONG_KEY_TYPE)
    else if !c.isEc pk then .error .nullDeref
    else if !c.ecOk pk then .ok (.error L8W8JWT_KEY_PARSE_FAILURE)
    else match hashOf c md msg with
      | none => .ok (.error L8W8JWT_SHA2_FAILURE)
      | some hash =>
        match ecReq alg with
        | none => .ok (.error L8W8JWT_WRONG_KEY_TYPE)
        | some (curve, len, bits) =>
          if c.grpId pk ≠ curve then .ok (.error L8W8JWT_WRONG_KEY_TYPE)
          else if c.bitlen pk ≠ bits then .ok (.error L8W8JWT_WRONG_KEY_TYPE)
          else match c.ecdsaSign pk hash with
            | none => .ok (.error L8W8JWT_SIGNATURE_CREATION_FAILURE)
            | some (r, s) =>
              match mpiWrite r (len / 2) with
              | none => .ok (.error L8W8JWT_SIGNATURE_CREATION_FAILURE)
              | some br =>
                match mpiWrite s (len / 2) with
                | none => .ok (.error L8W8JWT_SIGNATURE_CREATION_FAILURE)
                | some bs => .ok (.ok (br ++ bs))

/-- encode.c:523-549. -/
def signEd (env : Env) (secretKey : Option Bytes) (secretKeyLength : Nat) (msg : Bytes) : Res SigRes :=
  if !env.eddsa then .ok (.error L8W8JWT_UNSUPPORTED_ALG)
  else do
    let mem ← deref secretKey
    let good ← (if secretKeyLength = 128 then .ok true
      else if secretKeyLength = 129 then do let b ← rd mem 128; .ok (b = 0 : Bool)
      else .ok false : Res Bool)
    if !good then .ok (.error L8W8JWT_WRONG_KEY_TYPE)
    else do
      let h ← hexstr2bin env.charSigned (some mem) secretKeyLength (some 65) 65 true
      if h.rc ≠ 0 then .ok (.error L8W8JWT_WRONG_KEY_TYPE)
      else .ok (.ok ((padTo 4096 (env.crypto.edSign msg (padTo 65 h.written))).take 64))

/-- encode.c:259-554: seeding and the switch over the algorithms. `md_info` is non-NULL in every case that uses it. -/
def signSwitch (env : Env) (p : EncParams) (key : Bytes) (keyLength : Nat) (msg : Bytes) : Res SigRes :=
  let c := env.crypto
  if !c.seedOk then .ok (.error L8W8JWT_MBEDTLS_CTR_DRBG_SEED_FAILURE)
  else if p.alg = L8W8JWT_ALG_HS256 ∨ p.alg = L8W8JWT_ALG_HS384 ∨ p.alg = L8W8JWT_ALG_HS512 then do
    let md ← deref (encMd p.alg)
    signHmac c p.alg md key keyLength msg
  else if p.alg = L8W8JWT_ALG_RS256 ∨ p.alg = L8W8JWT_ALG_RS384 ∨ p.alg = L8W8JWT_ALG_RS512 then do
    let md ← deref (encMd p.alg)
    let pw ← pwArg p.secretKeyPw p.secretKeyPwLength
    signRsa c md key keyLength pw msg
  else if p.alg = L8W8JWT_ALG_PS256 ∨ p.alg = L8W8JWT_ALG_PS384 ∨ p.alg = L8W8JWT_ALG_PS512 then do
    let md ← deref (encMd p.alg)
    let pw ← pwArg p.secretKeyPw p.secretKeyPwLength
    signPss c md key keyLength pw msg
  else if p.alg = L8W8JWT_ALG_ES256 ∨ p.alg = L8W8JWT_ALG_ES384 ∨ p.alg = L8W8JWT_ALG_ES512
      ∨ p.alg = L8W8JWT_ALG_ES256K then do
    let md ← deref (encMd p.alg)
    let pw ← pwArg p.secretKeyPw p.secretKeyPwLength
    signEcdsa c p.alg md key keyLength pw msg
  else if p.alg = L8W8JWT_ALG_ED25519 then signEd env p.secretKey p.secretKeyLength msg
  else .ok (.error L8W8JWT_INVALID_ARG)

/-- encode.c:249-573: everything between the setup and the `exit` label. -/
def writeSignatureBody (env : Env) (sb : Bytes) (p : EncParams) : M (Nat × Bytes) := do
  let (key, keyLength) ← M.lift (loadKey p.secretKey p.secretKeyLength)
  let s ← M.lift (signSwitch env p key keyLength sb)
  match s with
  | .error rc => pure (rc, sb)
  | .ok sig =>
    if sig.length = 0 then pure (L8W8JWT_SIGNATURE_CREATION_FAILURE, sb)
    else do
      let seg ← base64Encode true (some sig) sig.length false false
      if seg.rc ≠ L8W8JWT_SUCCESS then pure (L8W8JWT_BASE64_FAILURE, sb)
      else do
        let ptr := seg.out.getD none
        let mem ← M.lift (deref ptr.bytes)
        let text ← M.lift (rdN mem (seg.len.getD 0))
        let sb ← push 1024 sb (str ".")
        let sb ← push 1024 sb text
        free ptr  -- line 580
        pure (L8W8JWT_SUCCESS, sb)

/-- encode.c:219-587 `write_signature`. With `L8W8JWT_SMALL_STACK` the two buffers are heap blocks; line 576 clears
`key` even if its allocation failed. -/
def writeSignature (env : Env) (sb : Bytes) (p : EncParams) : M (Nat × Bytes) :=
  if env.smallStack then do
    let sigBytes ← alloc (List.replicate 4096 0)
    let key ← alloc (List.replicate L8W8JWT_MAX_KEY_SIZE 0)
    let r ← (if sigBytes.isNone || key.isNone then pure (L8W8JWT_OUT_OF_MEM, sb)
      else writeSignatureBody env sb p : M (Nat × Bytes))
    M.lift (zeroize key L8W8JWT_MAX_KEY_SIZE)
    free key
    free sigBytes
    pure r
  else writeSignatureBody env sb p

/-- What `l8w8jwt_encode` leaves behind (`none`: not written). -/
structure EncOut where
  rc : Nat
  out : Option Ptr := none
  outLength : Option Nat := none
  deriving DecidableEq, Repr

/-- encode.c:590-603 `write_token`. -/
def writeToken (sb : Bytes) : M EncOut := do
  let p ← alloc (sb ++ [0])
  match p with
  | none => pure { rc := L8W8JWT_OUT_OF_MEM, out := some none }
  | some b => pure { rc := L8W8JWT_SUCCESS, out := some (some b), outLength := some sb.length }

/-- encode.c:605-613 `l8w8jwt_encoding_params_init`: the struct afterwards. -/
def encodingParamsInit : EncParams := { alg := -2 }

/-- encode.c:615-638 `l8w8jwt_validate_encoding_params`. -/
def validateEncodingParams (params : Option EncParams) : Nat :=
  match params with
  | none => L8W8JWT_NULL_ARG
  | some p =>
    if p.secretKey.isNone || p.outNull || p.outLengthNull then L8W8JWT_NULL_ARG
    else if p.secretKeyLength = 0 || L8W8JWT_MAX_KEY_SIZE < p.secretKeyLength then L8W8JWT_INVALID_ARG
    else if p.payloadClaims.isSome && p.payloadClaimsCount = 0 then L8W8JWT_INVALID_ARG
    else if p.headerClaims.isSome && p.headerClaimsCount = 0 then L8W8JWT_INVALID_ARG
    else L8W8JWT_SUCCESS

/-- encode.c:657-676: the three steps. -/
def encodeBody (env : Env) (p : EncParams) : M EncOut := do
  let (r, sb) ← writeHeaderAndPayload env [] p
  if r ≠ L8W8JWT_SUCCESS then pure { rc := r }
  else do
    let (r, sb) ← (if p.alg ≠ -1 then writeSignature env sb p
      else pure (L8W8JWT_SUCCESS, sb) : M (Nat × Bytes))
    if r ≠ L8W8JWT_SUCCESS then pure { rc := r }
    else writeToken sb

/-- encode.c:640-681 `l8w8jwt_encode`. -/
def encode (env : Env) (params : Option EncParams) : M EncOut :=
  if validateEncodingParams params ≠ L8W8JWT_SUCCESS then pure { rc := validateEncodingParams params }
  else match params with
    | none => M.lift (.error .nullDeref)
    | some p => do
      let blk ← alloc []
      match blk with
      | none => pure { rc := L8W8JWT_OUT_OF_MEM }
      | some _ => do
        let r ← encodeBody env p
        free blk
        pure r

end L8w8jwt
