import Verif.Model.Decode
/-!
# Key copies and mbedTLS objects in write_signature and l8w8jwt_verify_signature

`Model/Encode.lean` and `Model/Decode.lean` model what the two functions compute. This module models, for the same runs, the
sequence of operations on the local mbedTLS objects and on the local copies of the key, up to the return of the function.
The outcome of every external call is the one the crypto environment gives, as in the other modules; the two models are tied
together by theorems in Props/Resource.lean (same return code for every run).

Simplifications: calls that neither attach memory to an object nor read from one are left out (`mbedtls_md`,
`mbedtls_pk_get_bitlen` after `mbedtls_pk_can_do`, ...); where the main model says that behaviour is undefined (NULL
dereference of a key of the wrong type), the sequence goes on as if the call had failed.
-/

namespace L8w8jwt

/-- The local mbedTLS objects: encode.c:227-229, 389-394; decode.c:475-479, 650-655. -/
inductive Obj where
  | pk | entropy | drbg | ecdsa | sigR | sigS | crt
  deriving DecidableEq, Repr

/-- What is done with an object or with a copy of the key. -/
inductive Ev where
  /-- `mbedtls_.._init(&o)` -/
  | init (o : Obj)
  /-- a call that may attach memory to `o` (parsing, seeding, signing, reading a number), successful or not -/
  | fill (o : Obj)
  /-- a call that only reads `o` -/
  | use (o : Obj)
  /-- `dst = src.member`: both now refer to the memory of `src` -/
  | share (dst src : Obj)
  /-- `mbedtls_.._free(&o)` -/
  | free (o : Obj)
  /-- the key is written to the buffer `key` -/
  | copyKey
  /-- `mbedtls_platform_zeroize(key, ..)` over the whole buffer -/
  | wipeKey
  /-- the binary EdDSA key is written to `private_key_ref10` -/
  | copyEd
  /-- `mbedtls_platform_zeroize(private_key_ref10, ..)` -/
  | wipeEd
  deriving DecidableEq, Repr

/-- What a part of a function did, and the code with which it jumped to `exit` (`none`: it went on). -/
abbrev Tr := List Ev × Option Nat

/-- encode.c:302-338 (RS256, RS384, RS512). -/
def rsaEvents (c : Crypto) (md : Md) (k : Bytes) (pw : Option Bytes) (msg : Bytes) : Tr :=
  match c.parseKey k pw with
  | none => ([.use .drbg, .fill .pk], some L8W8JWT_KEY_PARSE_FAILURE)
  | some pk =>
    if !c.canRsa pk then ([.use .drbg, .fill .pk, .use .pk], some L8W8JWT_WRONG_KEY_TYPE)
    else if c.bitlen pk < 2048 then ([.use .drbg, .fill .pk, .use .pk], some L8W8JWT_WRONG_KEY_TYPE)
    else match hashOf c md msg with
      | none => ([.use .drbg, .fill .pk, .use .pk], some L8W8JWT_SHA2_FAILURE)
      | some hash =>
        match c.pkSign pk md hash with
        | none => ([.use .drbg, .fill .pk, .use .pk, .use .drbg, .use .pk], some L8W8JWT_SIGNATURE_CREATION_FAILURE)
        | some sig =>
          ([.use .drbg, .fill .pk, .use .pk, .use .drbg, .use .pk],
            if 4096 < sig.length then some L8W8JWT_SIGNATURE_CREATION_FAILURE else none)

/-- encode.c:345-382 (PS256, PS384, PS512). -/
def pssEvents (c : Crypto) (md : Md) (k : Bytes) (pw : Option Bytes) (msg : Bytes) : Tr :=
  match c.parseKey k pw with
  | none => ([.use .drbg, .fill .pk], some L8W8JWT_KEY_PARSE_FAILURE)
  | some pk =>
    if !c.canPss pk then ([.use .drbg, .fill .pk, .use .pk], some L8W8JWT_WRONG_KEY_TYPE)
    else if c.bitlen pk < 2048 then ([.use .drbg, .fill .pk, .use .pk], some L8W8JWT_WRONG_KEY_TYPE)
    else match hashOf c md msg with
      | none => ([.use .drbg, .fill .pk, .use .pk], some L8W8JWT_SHA2_FAILURE)
      | some hash =>
        match c.pssSign pk md hash with
        | none => ([.use .drbg, .fill .pk, .use .pk, .fill .pk, .use .drbg, .use .pk], some L8W8JWT_SIGNATURE_CREATION_FAILURE)
        | some _ => ([.use .drbg, .fill .pk, .use .pk, .fill .pk, .use .drbg, .use .pk], none)

/-- encode.c:396-508: from the key to the label `ecdsa_exit`. -/
def ecdsaBodyEvents (c : Crypto) (alg : Int) (md : Md) (k : Bytes) (pw : Option Bytes) (msg : Bytes) : Tr :=
  match c.parseKey k pw with
  | none => ([.use .drbg, .fill .pk], some L8W8JWT_KEY_PARSE_FAILURE)
  | some pk =>
    if !c.canEcdsa pk then ([.use .drbg, .fill .pk, .use .pk], some L8W8JWT_WRONG_KEY_TYPE)
    else if !c.ecOk pk then ([.use .drbg, .fill .pk, .use .pk, .fill .ecdsa], some L8W8JWT_KEY_PARSE_FAILURE)
    else match hashOf c md msg with
      | none => ([.use .drbg, .fill .pk, .use .pk, .fill .ecdsa], some L8W8JWT_SHA2_FAILURE)
      | some hash =>
        match ecReq alg with
        | none => ([.use .drbg, .fill .pk, .use .pk, .fill .ecdsa], some L8W8JWT_WRONG_KEY_TYPE)
        | some (curve, len, bits) =>
          if c.grpId pk ≠ curve then ([.use .drbg, .fill .pk, .use .pk, .fill .ecdsa, .use .ecdsa], some L8W8JWT_WRONG_KEY_TYPE)
          else if c.bitlen pk ≠ bits then
            ([.use .drbg, .fill .pk, .use .pk, .fill .ecdsa, .use .ecdsa, .use .pk], some L8W8JWT_WRONG_KEY_TYPE)
          else
            let signed : List Ev :=
              [.use .drbg, .fill .pk, .use .pk, .fill .ecdsa, .use .ecdsa, .use .pk, .use .ecdsa, .use .drbg, .fill .sigR, .fill .sigS]
            match c.ecdsaSign pk hash with
            | none => (signed, some L8W8JWT_SIGNATURE_CREATION_FAILURE)
            | some (r, s) =>
              match mpiWrite r (len / 2) with
              | none => (signed ++ [.use .sigR], some L8W8JWT_SIGNATURE_CREATION_FAILURE)
              | some _ =>
                match mpiWrite s (len / 2) with
                | none => (signed ++ [.use .sigR, .use .sigS], some L8W8JWT_SIGNATURE_CREATION_FAILURE)
                | some _ => (signed ++ [.use .sigR, .use .sigS], none)

/-- encode.c:389-522 (ES256, ES384, ES512, ES256K). -/
def ecdsaEvents (c : Crypto) (alg : Int) (md : Md) (k : Bytes) (pw : Option Bytes) (msg : Bytes) : Tr :=
  let b := ecdsaBodyEvents c alg md k pw msg
  ([.init .ecdsa, .init .sigR, .init .sigS] ++ b.1 ++ [.free .sigR, .free .sigS, .free .ecdsa], b.2)

/-- encode.c:523-549 (EdDSA). -/
def edEvents (env : Env) (secretKey : Bytes) (n : Nat) : Tr :=
  if !env.eddsa then ([], some L8W8JWT_UNSUPPORTED_ALG)
  else if ¬(n = 128 ∨ (n = 129 ∧ secretKey[128]? = some 0)) then ([], some L8W8JWT_WRONG_KEY_TYPE)
  else match hexstr2bin env.charSigned (some secretKey) n (some 65) 65 true with
    | .error _ => ([], none)
    | .ok h => if h.rc ≠ 0 then ([], some L8W8JWT_WRONG_KEY_TYPE) else ([.copyEd, .wipeEd], none)

/-- encode.c:276-295 (HS256, HS384, HS512). -/
def hmacEvents (c : Crypto) (md : Md) (k msg : Bytes) : Tr :=
  match c.hmac md k msg with
  | none => ([], some L8W8JWT_SIGNATURE_CREATION_FAILURE)
  | some _ => ([], none)

/-- encode.c:259-554: seeding and the switch. `key`: the buffer, `n`: `key_length`. -/
def signEvents (env : Env) (p : EncParams) (key : Bytes) (n : Nat) (msg : Bytes) : Tr :=
  let c := env.crypto
  let pw := p.secretKeyPw.map (·.take p.secretKeyPwLength)
  let md := (encMd p.alg).getD .sha256
  if !c.seedOk then ([], some L8W8JWT_MBEDTLS_CTR_DRBG_SEED_FAILURE)
  else if p.alg = L8W8JWT_ALG_HS256 ∨ p.alg = L8W8JWT_ALG_HS384 ∨ p.alg = L8W8JWT_ALG_HS512 then
    hmacEvents c md (key.take (n - 1)) msg
  else if p.alg = L8W8JWT_ALG_RS256 ∨ p.alg = L8W8JWT_ALG_RS384 ∨ p.alg = L8W8JWT_ALG_RS512 then
    rsaEvents c md (key.take n) pw msg
  else if p.alg = L8W8JWT_ALG_PS256 ∨ p.alg = L8W8JWT_ALG_PS384 ∨ p.alg = L8W8JWT_ALG_PS512 then
    pssEvents c md (key.take n) pw msg
  else if p.alg = L8W8JWT_ALG_ES256 ∨ p.alg = L8W8JWT_ALG_ES384 ∨ p.alg = L8W8JWT_ALG_ES512 ∨ p.alg = L8W8JWT_ALG_ES256K then
    ecdsaEvents c p.alg md (key.take n) pw msg
  else if p.alg = L8W8JWT_ALG_ED25519 then edEvents env (p.secretKey.getD []) p.secretKeyLength
  else ([], some L8W8JWT_INVALID_ARG)

/-- encode.c:227-573 and the label `exit` (lines 575-586), in terms of the objects. The base64 encoding of the signature (line 565)
does not touch any of them. -/
def writeSignatureEvents (env : Env) (p : EncParams) (msg : Bytes) : Tr :=
  let b : Tr := match loadKey p.secretKey p.secretKeyLength with
    | .error _ => ([], none)
    | .ok (key, n) =>
      let b := signEvents env p key n msg
      ([.copyKey, .fill .entropy, .fill .drbg] ++ b.1, b.2)
  ([.init .pk, .init .entropy, .init .drbg] ++ b.1 ++ [.wipeKey, .free .drbg, .free .entropy, .free .pk], b.2)

/-- encode.c:231-247, 575-585: the run of a small stack build in which one of the two buffers could not be allocated. -/
def writeSignatureOomEvents : List Ev :=
  [.init .pk, .init .entropy, .init .drbg, .wipeKey, .free .drbg, .free .entropy, .free .pk]

/-- decode.c:590-598 (and 613-621, 640-648): the public key, unless it comes from the certificate. -/
def pubEvents (c : Crypto) (crt : Option c.PK) (k : Bytes) : List Ev × Option c.PK :=
  match crt with
  | some pk => ([], some pk)
  | none => ([.fill .pk], c.parsePublicKey k)

/-- decode.c:635-684 (ES256, ES384, ES512, ES256K), with the parsed key. -/
def ecdsaVerifyEvents (c : Crypto) (pk : c.PK) : Tr :=
  if !c.ecOk pk then
    ([.init .ecdsa, .init .sigR, .init .sigS, .use .pk, .fill .ecdsa, .free .ecdsa, .free .sigR, .free .sigS],
      some L8W8JWT_KEY_PARSE_FAILURE)
  else
    ([.init .ecdsa, .init .sigR, .init .sigS, .use .pk, .fill .ecdsa, .fill .sigR, .fill .sigS, .use .ecdsa, .use .sigR, .use .sigS,
      .free .ecdsa, .free .sigR, .free .sigS], none)

/-- decode.c:685-713 (EdDSA). -/
def edVerifyEvents (env : Env) (key : Bytes) (n : Nat) : Tr :=
  if !env.eddsa then ([], some L8W8JWT_UNSUPPORTED_ALG)
  else if n ≠ 64 ∧ ¬(n = 65 ∧ key[64]? = some 0) then ([], some L8W8JWT_WRONG_KEY_TYPE)
  else match hexstr2bin env.charSigned (some key) n (some 33) 33 true with
    | .error _ => ([], none)
    | .ok h => if h.rc ≠ 0 then ([], some L8W8JWT_WRONG_KEY_TYPE) else ([], none)

/-- decode.c:561-716: the switch. -/
def verifyEvents (env : Env) (alg : Int) (crt : Option env.crypto.PK) (key : Bytes) (n : Nat) : Tr :=
  let c := env.crypto
  let pub := pubEvents c crt (key.take n)
  let withPk (f : c.PK → Tr) : Tr := match pub.2 with
    | none => (pub.1, some L8W8JWT_KEY_PARSE_FAILURE)
    | some pk => (pub.1 ++ (f pk).1, (f pk).2)
  if alg = L8W8JWT_ALG_HS256 ∨ alg = L8W8JWT_ALG_HS384 ∨ alg = L8W8JWT_ALG_HS512 then ([], none)
  else if alg = L8W8JWT_ALG_RS256 ∨ alg = L8W8JWT_ALG_RS384 ∨ alg = L8W8JWT_ALG_RS512 then withPk fun _ => ([.use .pk], none)
  else if alg = L8W8JWT_ALG_PS256 ∨ alg = L8W8JWT_ALG_PS384 ∨ alg = L8W8JWT_ALG_PS512 then
    withPk fun _ => ([.use .pk, .use .pk], none)
  else if alg = L8W8JWT_ALG_ES256 ∨ alg = L8W8JWT_ALG_ES256K ∨ alg = L8W8JWT_ALG_ES384 ∨ alg = L8W8JWT_ALG_ES512 then
    withPk (ecdsaVerifyEvents c)
  else if alg = L8W8JWT_ALG_ED25519 then edVerifyEvents env key n
  else ([], none)

/-- decode.c:512-559: finding the signed text and hashing it: `some rc` if that fails. -/
def hashRc (env : Env) (p : DecParams) : Option Nat :=
  match p.jwt with
  | none => none
  | some jwt =>
    match signatureDot jwt with
    | .error _ => none
    | .ok none => some L8W8JWT_DECODE_FAILED_INVALID_TOKEN_FORMAT
    | .ok (some d) => match verifyHash env.crypto p.alg (jwt.take d) with
      | none => some L8W8JWT_SHA2_FAILURE
      | some _ => none

/-- decode.c:512-716. -/
def verifyTailEvents (env : Env) (p : DecParams) (crt : Option env.crypto.PK) (key : Bytes) (n : Nat) : Tr :=
  match hashRc env p with
  | some rc => ([], some rc)
  | none => verifyEvents env p.alg crt key n

/-- decode.c:494-718 and the label `exit` up to line 734: the events and whether the key is a certificate (`is_cert`). -/
def verifyBodyEvents (env : Env) (p : DecParams) : Tr × Bool :=
  match loadKey p.verificationKey p.verificationKeyLength with
  | .error _ => (([], none), false)
  | .ok (key, n) =>
    match strstrFound key (str "-----BEGIN CERTIFICATE-----") with
    | .ok true => match env.crypto.parseCrt (key.take n) with
      | none => (([.copyKey, .fill .crt], some L8W8JWT_KEY_PARSE_FAILURE), true)
      | some pk =>
        let t := verifyTailEvents env p (some pk) key n
        (([.copyKey, .fill .crt, .share .pk .crt] ++ t.1, t.2), true)
    | _ =>
      let t := verifyTailEvents env p none key n
      (([.copyKey] ++ t.1, t.2), false)

/-- decode.c:475-737 `l8w8jwt_verify_signature` (for a token with signature), in terms of the objects. -/
def verifySignatureEvents (env : Env) (p : DecParams) : Tr :=
  let b := verifyBodyEvents env p
  ([.init .pk, .init .crt] ++ b.1.1 ++ [.wipeKey] ++ (if b.2 then [.free .crt] else [.free .pk]), b.1.2)

/-- decode.c:481-487, 720-735: the run of a small stack build in which the key buffer could not be allocated. -/
def verifySignatureOomEvents : List Ev := [.init .pk, .init .crt, .wipeKey, .free .pk]

/-- `mbedtls_platform_zeroize(p, n)` (claim.c:44-45): the content of the block afterwards. -/
def wiped (p : Ptr) (n : Nat) : List Bytes :=
  match p with
  | none => []
  | some b => [List.replicate n 0 ++ b.mem.drop n]

/-- claim.c:37-49: the contents of the blocks that the loop of `l8w8jwt_free_claims` hands to `l8w8jwt_free`, in order. -/
def freedContents (cs : List Claim) : List Bytes := cs.flatMap fun c => wiped c.key c.keyLength ++ wiped c.value c.valueLength

end L8w8jwt
