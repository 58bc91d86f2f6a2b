import Verif.Spec.Claim
import Verif.Spec.Base64
import Verif.Spec.JsonText
import Verif.Spec.Codes
import Verif.Model.Encode
/-!
# What `l8w8jwt_encode` is documented to produce (RFC 7515, 7518, 7519, 8037, 8812), independent of the model

From the model only the data types (parameters, claims, cryptographic primitives) are used.
-/

namespace L8w8jwt.Spec

/-- How an algorithm signs. `ecdsa`: hash, curve, octets per number, key bits. -/
inductive Scheme where
  | hmac (md : Md)
  | rsa (md : Md)
  | pss (md : Md)
  | ecdsa (md : Md) (curve : Curve) (octets bits : Nat)
  | eddsa
  deriving DecidableEq

/-- RFC 7518 section 3.1, RFC 8812 section 3.2, RFC 8037 section 3.1, in the order of the ids in algs.h. -/
def algs : List (String × Scheme) :=
  [("HS256", .hmac .sha256), ("HS384", .hmac .sha384), ("HS512", .hmac .sha512),
   ("RS256", .rsa .sha256), ("RS384", .rsa .sha384), ("RS512", .rsa .sha512),
   ("PS256", .pss .sha256), ("PS384", .pss .sha384), ("PS512", .pss .sha512),
   ("ES256", .ecdsa .sha256 .secp256r1 32 256), ("ES384", .ecdsa .sha384 .secp384r1 48 384),
   ("ES512", .ecdsa .sha512 .secp521r1 66 521), ("ES256K", .ecdsa .sha256 .secp256k1 32 256), ("EdDSA", .eddsa)]

/-- The hash function applied to the signing input first, if signing and checking work on the hash. -/
def Scheme.prehash : Scheme → Option Md
  | .rsa md | .pss md | .ecdsa md _ _ _ => some md
  | .hmac _ | .eddsa => none

/-- The algorithm with a given id. -/
def alg? (id : Int) : Option (String × Scheme) := if id < 0 then none else algs[id.toNat]?

/-- A JSON member with a string value that needs no escaping. -/
def plainMember (k v : String) : Bytes := str "\"" ++ str k ++ str "\":\"" ++ str v ++ str "\""

/-- The header members written before the additional ones. -/
def headerBase (name : String) : List Bytes :=
  [plainMember "alg" name, plainMember "typ" "JWT"] ++
    (if name = "ES256K" then [plainMember "kty" "EC", plainMember "crv" "secp256k1"] else []) ++
    (if name = "EdDSA" then [plainMember "kty" "EC", plainMember "crv" "Ed25519"] else [])

/-- The additional members given by an array and a count. -/
def extra (claims : Option (List Claim)) (n : Nat) : List Bytes := memberTexts ((claims.getD []).take n)

/-- The intended header. -/
def headerJson (p : EncParams) (name : String) : Bytes :=
  str "{" ++ commaSep (headerBase name ++ extra p.headerClaims p.headerClaimsCount) ++ str "}"

/-- Decimal representation of a natural number. -/
def natText (n : Nat) : Bytes :=
  if n < 10 then [UInt8.ofNat (48 + n)] else natText (n / 10) ++ [UInt8.ofNat (48 + n % 10)]

/-- Decimal representation of an integer. -/
def intText (t : Int) : Bytes := if t < 0 then str "-" ++ natText t.natAbs else natText t.natAbs

/-- The value of a string of decimal digits. -/
def natValue (ds : Bytes) : Nat := ds.foldl (fun a c => a * 10 + (c.toNat - 48)) 0

/-- A registered time claim: absent if zero. `f` says how times are printed. -/
def timeMember (f : Int → Bytes) (k : String) (t : Int) : List Bytes :=
  if t = 0 then [] else [str "\"" ++ str k ++ str "\":" ++ f t]

/-- A registered string claim: absent if NULL. -/
def strMember (k : String) (v : Ptr) (n : Nat) : List Bytes :=
  match v with
  | none => []
  | some b => [str "\"" ++ str k ++ str "\":\"" ++ escape (arg b.mem n) ++ str "\""]

/-- The text the encoder was given, if any. -/
def givenText (v : Ptr) (n : Nat) : Option Bytes := v.map fun b => arg b.mem n

/-- The texts of the registered claims that are present, in the order in which they are written. -/
def registeredWith (f : Int → Bytes) (p : EncParams) : List Bytes :=
  timeMember f "iat" p.iat ++ timeMember f "nbf" p.nbf ++ timeMember f "exp" p.exp ++ strMember "sub" p.sub p.subLength ++
    strMember "iss" p.iss p.issLength ++ strMember "aud" p.aud p.audLength ++ strMember "jti" p.jti p.jtiLength

/-- The intended registered claims: times are printed in decimal. -/
def registered (p : EncParams) : List Bytes := registeredWith intText p

/-- The intended payload. -/
def payloadJson (p : EncParams) : Bytes :=
  str "{" ++ commaSep (registered p ++ extra p.payloadClaims p.payloadClaimsCount) ++ str "}"

/-- A claim given to the encoder as raw key and raw value. -/
def Member.pair (m : Member) : Bytes × Bytes :=
  (escape (arg m.key m.keyLength),
    if m.isString then str "\"" ++ escape (arg m.value m.valueLength) ++ str "\"" else arg m.value m.valueLength)

/-- The additional members as raw keys and raw values. -/
def extraPairs (claims : Option (List Claim)) (n : Nat) : List (Bytes × Bytes) :=
  (((claims.getD []).take n).filterMap member).map Member.pair

/-- Raw key and value of a registered time claim. -/
def timePair (k : String) (t : Int) : List (Bytes × Bytes) := if t = 0 then [] else [(str k, intText t)]

/-- Raw key and value of a registered string claim. -/
def strPair (k : String) (v : Ptr) (n : Nat) : List (Bytes × Bytes) :=
  match v with
  | none => []
  | some b => [(str k, str "\"" ++ escape (arg b.mem n) ++ str "\"")]

/-- The registered claims as raw keys and raw values. -/
def registeredPairs (p : EncParams) : List (Bytes × Bytes) :=
  timePair "iat" p.iat ++ timePair "nbf" p.nbf ++ timePair "exp" p.exp ++ strPair "sub" p.sub p.subLength ++
    strPair "iss" p.iss p.issLength ++ strPair "aud" p.aud p.audLength ++ strPair "jti" p.jti p.jtiLength

/-- The fixed header members as raw keys and raw values. -/
def headerPairs (name : String) : List (Bytes × Bytes) :=
  let q (k v : String) : Bytes × Bytes := (str k, str "\"" ++ str v ++ str "\"")
  [q "alg" name, q "typ" "JWT"] ++ (if name = "ES256K" then [q "kty" "EC", q "crv" "secp256k1"] else []) ++
    (if name = "EdDSA" then [q "kty" "EC", q "crv" "Ed25519"] else [])

/-- Claims whose type is not string carry a JSON value. -/
def valuesOk (claims : Option (List Claim)) (n : Nat) : Prop :=
  ∀ c ∈ (claims.getD []).take n, ∀ m, member c = some m → m.isString = false → JText .value (arg m.value m.valueLength)

/-- `tok` is a token (RFC 7515 section 3.1) with the given header, payload and signature. -/
def IsToken (tok hdr pay sig : Bytes) : Prop := tok = b64 true hdr ++ str "." ++ b64 true pay ++ str "." ++ b64 true sig

/-- The bytes that are signed. -/
def signingInput (hdr pay : Bytes) : Bytes := b64 true hdr ++ str "." ++ b64 true pay

/-- A readable string parameter (NULL allowed); `ascii`: its characters must be ASCII. -/
def strOk (ascii : Bool) (v : Ptr) (n : Nat) : Prop :=
  ∀ b, v = some b → argOk b.mem n ∧ (ascii = true → ∀ c ∈ arg b.mem n, c < 128)

/-- A readable array of claims (NULL allowed). -/
def claimsOk (ascii : Bool) (claims : Option (List Claim)) (n : Nat) : Prop :=
  ∀ l, claims = some l → n ≤ l.length ∧ (∀ c ∈ l.take n, claimOk c) ∧
    (ascii = true → ∀ c ∈ l.take n, ∀ m, member c = some m → m.ascii)

/-- The strings and claim arrays are readable, and ASCII where `char` is signed. -/
structure TextsOk (env : Env) (p : EncParams) : Prop where
  iss : strOk env.charSigned p.iss p.issLength
  sub : strOk env.charSigned p.sub p.subLength
  aud : strOk env.charSigned p.aud p.audLength
  jti : strOk env.charSigned p.jti p.jtiLength
  header : claimsOk env.charSigned p.headerClaims p.headerClaimsCount
  payload : claimsOk env.charSigned p.payloadClaims p.payloadClaimsCount

/-- Big-endian representation with `n` octets. -/
def be : Nat → Nat → Bytes
  | 0, _ => []
  | n + 1, x => be n (x / 256) ++ [UInt8.ofNat (x % 256)]

/-- The key bytes given by the caller. -/
def keyBytes (p : EncParams) : Bytes := (p.secretKey.getD []).take p.secretKeyLength

/-- The HMAC key: a terminating NUL is not part of it. -/
def hmacKey (k : Bytes) : Bytes := if k.getLast? = some 0 then k.dropLast else k

/-- What is passed to the PEM parser: NUL-terminated text. -/
def pemKey (k : Bytes) : Bytes := if k.getLast? = some 0 then k else k ++ [0]

/-- The password passed to the PEM parser. -/
def password (p : EncParams) : Option Bytes := p.secretKeyPw.map (·.take p.secretKeyPwLength)

/-- `sig` is a signature of `msg` under the selected algorithm and the given key. An EdDSA key is given by 128 hexadecimal digits
(`laxHex` extends their meaning to all characters). -/
def Signs (env : Env) (p : EncParams) (msg sig : Bytes) : Prop :=
  let c := env.crypto
  match alg? p.alg with
  | none => False
  | some (_, .hmac md) => c.hmac md (hmacKey (keyBytes p)) msg = some sig
  | some (_, .rsa md) => ∃ pk hash, c.parseKey (pemKey (keyBytes p)) (password p) = some pk ∧ c.md md msg = some hash ∧
      c.pkSign pk md hash = some sig
  | some (_, .pss md) => ∃ pk hash, c.parseKey (pemKey (keyBytes p)) (password p) = some pk ∧ c.md md msg = some hash ∧
      c.pssSign pk md hash = some sig
  | some (_, .ecdsa md _ n _) => ∃ pk hash r s, c.parseKey (pemKey (keyBytes p)) (password p) = some pk ∧
      c.md md msg = some hash ∧ c.ecdsaSign pk hash = some (r, s) ∧ r < 256 ^ n ∧ s < 256 ^ n ∧ sig = be n r ++ be n s
  | some (_, .eddsa) => sig = c.edSign msg (laxHex env.charSigned ((keyBytes p).take 128) ++ [0])

/-- A secret key for EdDSA: 128 characters, the last of which is not NUL, or these and a NUL. -/
def EdKey (k : Bytes) : Prop := (k.length = 128 ∧ k.getLast? ≠ some 0) ∨ (k.length = 129 ∧ k.getLast? = some 0)

/-- The key is of the kind and strength required by the algorithm. -/
def KeySuits (env : Env) (p : EncParams) : Prop :=
  let c := env.crypto
  match alg? p.alg with
  | none => False
  | some (_, .hmac _) => True
  | some (_, .rsa _) => ∃ pk, c.parseKey (pemKey (keyBytes p)) (password p) = some pk ∧ c.canRsa pk = true ∧ 2048 ≤ c.bitlen pk
  | some (_, .pss _) => ∃ pk, c.parseKey (pemKey (keyBytes p)) (password p) = some pk ∧ c.canPss pk = true ∧ 2048 ≤ c.bitlen pk
  | some (_, .ecdsa _ curve _ bits) => ∃ pk, c.parseKey (pemKey (keyBytes p)) (password p) = some pk ∧ c.canEcdsa pk = true ∧
      c.grpId pk = curve ∧ c.bitlen pk = bits
  | some (_, .eddsa) => env.eddsa = true ∧ EdKey (keyBytes p)

/-- The environment can produce a signature of `msg` with the selected algorithm and the given key. -/
def CanSign (env : Env) (p : EncParams) (msg : Bytes) : Prop :=
  let c := env.crypto
  c.seedOk = true ∧ KeySuits env p ∧
  match alg? p.alg with
  | none => False
  | some (_, .hmac md) => ∃ sig, c.hmac md (hmacKey (keyBytes p)) msg = some sig
  | some (_, .rsa md) => ∃ pk hash sig, c.parseKey (pemKey (keyBytes p)) (password p) = some pk ∧ c.md md msg = some hash ∧
      c.pkSign pk md hash = some sig ∧ sig.length ≤ 4096
  | some (_, .pss md) => ∃ pk hash sig, c.parseKey (pemKey (keyBytes p)) (password p) = some pk ∧ c.md md msg = some hash ∧
      c.pssSign pk md hash = some sig
  | some (_, .ecdsa md _ n _) => ∃ pk hash r s, c.parseKey (pemKey (keyBytes p)) (password p) = some pk ∧ c.ecOk pk = true ∧
      c.md md msg = some hash ∧ c.ecdsaSign pk hash = some (r, s) ∧ r < 256 ^ n ∧ s < 256 ^ n
  | some (_, .eddsa) => True

/-- The key is of the kind the algorithm needs. -/
def Scheme.Kind (c : Crypto) (pk : c.PK) : Scheme → Prop
  | .rsa _ => c.canRsa pk = true
  | .pss _ => c.canPss pk = true
  | .ecdsa _ _ _ _ => c.canEcdsa pk = true
  | .hmac _ | .eddsa => True

/-- The key is long enough (RSA), or consistent (ECDSA). -/
def Scheme.Strong (c : Crypto) (pk : c.PK) : Scheme → Prop
  | .rsa _ | .pss _ => 2048 ≤ c.bitlen pk
  | .ecdsa _ _ _ _ => c.ecOk pk = true
  | .hmac _ | .eddsa => True

/-- The key is on the curve the algorithm prescribes. -/
def Scheme.OnCurve (c : Crypto) (pk : c.PK) : Scheme → Prop
  | .ecdsa _ curve _ bits => c.grpId pk = curve ∧ c.bitlen pk = bits
  | _ => True

/-- The primitive signs the hash, and the result has the size the algorithm prescribes (RSA: at most 4096 octets). -/
def Scheme.Signable (c : Crypto) (pk : c.PK) (hash : Bytes) : Scheme → Prop
  | .rsa md => ∃ sig, c.pkSign pk md hash = some sig ∧ sig.length ≤ 4096
  | .pss md => ∃ sig, c.pssSign pk md hash = some sig
  | .ecdsa _ _ n _ => ∃ r s, c.ecdsaSign pk hash = some (r, s) ∧ r < 256 ^ n ∧ s < 256 ^ n
  | .hmac _ | .eddsa => True

/-- Signing with the key text `k` fails, for the reason with the given return code (retcodes.h). The reasons exclude each other:
each comes after the ones above it. -/
inductive PemFails (c : Crypto) (sch : Scheme) (k : Bytes) (pw : Option Bytes) (msg : Bytes) : Nat → Prop where
  | parse : c.parseKey k pw = none → PemFails c sch k pw msg Code.keyParse
  | kind {pk} : c.parseKey k pw = some pk → ¬ sch.Kind c pk → PemFails c sch k pw msg Code.wrongKey
  | weak {pk} : c.parseKey k pw = some pk → sch.Kind c pk → ¬ sch.Strong c pk → (∀ md cv n b, sch ≠ .ecdsa md cv n b) →
      PemFails c sch k pw msg Code.wrongKey
  | broken {pk md cv n b} : c.parseKey k pw = some pk → sch.Kind c pk → ¬ sch.Strong c pk → sch = .ecdsa md cv n b →
      PemFails c sch k pw msg Code.keyParse
  | hash {pk md} : c.parseKey k pw = some pk → sch.Kind c pk → sch.Strong c pk → sch.prehash = some md → c.md md msg = none →
      PemFails c sch k pw msg Code.sha2
  | curve {pk md hash} : c.parseKey k pw = some pk → sch.Kind c pk → sch.Strong c pk → sch.prehash = some md →
      c.md md msg = some hash → ¬ sch.OnCurve c pk → PemFails c sch k pw msg Code.wrongKey
  | sign {pk md hash} : c.parseKey k pw = some pk → sch.Kind c pk → sch.Strong c pk → sch.prehash = some md →
      c.md md msg = some hash → sch.OnCurve c pk → ¬ sch.Signable c pk hash → PemFails c sch k pw msg Code.signing

/-- Signing `msg` fails, for the reason with the given return code. -/
inductive SignFails (env : Env) (p : EncParams) (msg : Bytes) : Nat → Prop where
  | seed : env.crypto.seedOk = false → SignFails env p msg Code.seed
  | hmac {name md} : env.crypto.seedOk = true → alg? p.alg = some (name, .hmac md) →
      env.crypto.hmac md (hmacKey (keyBytes p)) msg = none → SignFails env p msg Code.signing
  | pem {name sch md rc} : env.crypto.seedOk = true → alg? p.alg = some (name, sch) → sch.prehash = some md →
      PemFails env.crypto sch (pemKey (keyBytes p)) (password p) msg rc → SignFails env p msg rc
  | edOff {name} : env.crypto.seedOk = true → alg? p.alg = some (name, .eddsa) → env.eddsa = false → SignFails env p msg Code.unsupported
  | edKey {name} : env.crypto.seedOk = true → alg? p.alg = some (name, .eddsa) → env.eddsa = true → ¬ EdKey (keyBytes p) →
      SignFails env p msg Code.wrongKey

/-- The memory behind the key and the password is readable. -/
def KeyReadable (p : EncParams) : Prop :=
  (∃ mem, p.secretKey = some mem ∧ p.secretKeyLength ≤ mem.length) ∧
  ∀ mem, p.secretKeyPw = some mem → p.secretKeyPwLength ≤ mem.length

/-- What mbedTLS and ed25519 guarantee about sizes and key kinds. -/
structure CryptoOk (c : Crypto) : Prop where
  hmac : ∀ md k m t, c.hmac md k m = some t → t.length = md.len
  md : ∀ md m t, c.md md m = some t → t.length = md.len
  sign : ∀ pk md m t, c.pkSign pk md m = some t → t ≠ []
  ed : ∀ m k, (c.edSign m k).length = 64
  pss : ∀ pk md m t, c.pssSign pk md m = some t → t.length = c.rsaLen pk
  rsaLen : ∀ pk, c.isRsa pk = true → c.rsaLen pk = (c.bitlen pk + 7) / 8 ∧ c.rsaLen pk ≤ 4096
  canPss : ∀ pk, c.canPss pk = true → c.isRsa pk = true
  canEcdsa : ∀ pk, c.canEcdsa pk = true → c.isEc pk = true

/-- What follows the fixed members of the header, given the texts of the additional ones. -/
def headerTail (p : EncParams) (e : List Bytes) : Bytes :=
  (if 0 < p.headerClaimsCount then str "," ++ commaSep e else []) ++ str "}"

/-- Times as the code prints them. -/
def timeText (t : Int) : Bytes := natText (toU64 t)

/-- Does the code put a comma before the additional payload claims? (encode.c:192-197) -/
def sep (p : EncParams) : Prop :=
  p.iat ≠ 0 ∨ p.exp ≠ 0 ∨ p.nbf ≠ 0 ∨ p.issLength ≠ 0 ∨ p.subLength ≠ 0 ∨ p.jtiLength ≠ 0 ∨ p.audLength ≠ 0

instance (p : EncParams) : Decidable (sep p) := by unfold sep; infer_instance

/-- The payload text, given the texts of the registered and the additional claims. -/
def payloadForm (p : EncParams) (r e : List Bytes) : Bytes :=
  str "{" ++ commaSep r ++ (if 0 < p.payloadClaimsCount then (if sep p then str "," else []) ++ commaSep e else []) ++ str "}"

/-- The header and payload as the code writes them. -/
def writtenHeader (p : EncParams) (name : String) : Bytes :=
  str "{" ++ commaSep (headerBase name) ++ headerTail p (extra p.headerClaims p.headerClaimsCount)
def writtenPayload (p : EncParams) : Bytes :=
  payloadForm p (registeredWith timeText p) (extra p.payloadClaims p.payloadClaimsCount)

/-- Size limit of the encoder: `line_length` must not overflow. -/
def b64Fits (n : Nat) : Prop := 4 * ((n + 2) / 3) ≤ intMax

/-- The texts are small enough for the base64 encoder's `int` counters. -/
def SizesOk (p : EncParams) : Prop :=
  b64Fits (writtenPayload p).length ∧ ∀ name sch, alg? p.alg = some (name, sch) → b64Fits (writtenHeader p name).length

/-- The key fits into the buffer with its terminator, which the PEM parser needs. -/
def PemFits (p : EncParams) : Prop :=
  (keyBytes p).length < L8W8JWT_MAX_KEY_SIZE ∨ (keyBytes p).getLast? = some 0

/-- The algorithm reads a PEM key. -/
def needsPem (alg : Int) : Prop := 3 ≤ alg ∧ alg ≤ 12

/-- The strings and claim arrays are readable. -/
structure TextsReadable (p : EncParams) : Prop where
  iss : strOk false p.iss p.issLength
  sub : strOk false p.sub p.subLength
  aud : strOk false p.aud p.audLength
  jti : strOk false p.jti p.jtiLength
  header : claimsOk false p.headerClaims p.headerClaimsCount
  payload : claimsOk false p.payloadClaims p.payloadClaimsCount

/-- All keys and all string values of the claims are ASCII. -/
def claimsAscii (claims : Option (List Claim)) (n : Nat) : Prop :=
  ∀ c ∈ (claims.getD []).take n, ∀ m, member c = some m → m.ascii

/-- All strings that are written with escapes are ASCII. -/
def TextsAscii (p : EncParams) : Prop :=
  (∀ v n, (v, n) ∈ [(p.iss, p.issLength), (p.sub, p.subLength), (p.aud, p.audLength), (p.jti, p.jtiLength)] →
    ∀ b, v = some b → ∀ c ∈ arg b.mem n, c < 128) ∧
  claimsAscii p.headerClaims p.headerClaimsCount ∧ claimsAscii p.payloadClaims p.payloadClaimsCount

/-- When encoding readable parameters is free of undefined behaviour: the algorithm is unknown (nothing is written then), or
the texts are ASCII (where `char` is signed) and not too long, and a PEM key leaves room for its terminator. -/
def EncDefined (env : Env) (p : EncParams) : Prop :=
  ∀ name sch, alg? p.alg = some (name, sch) →
    (env.charSigned = true → TextsAscii p) ∧ b64Fits (writtenHeader p name).length ∧ b64Fits (writtenPayload p).length ∧
    (env.crypto.seedOk = true → needsPem p.alg → PemFits p)

/-- `sig` is what `l8w8jwt_encode` takes for the signature of `msg`: the signature, of which the code keeps for PSS only as many octets
as the key has multiples of eight bits (encode.c:381). -/
def Signed (env : Env) (p : EncParams) (msg sig : Bytes) : Prop :=
  match alg? p.alg with
  | some (_, .pss md) => ∃ pk hash full, env.crypto.parseKey (pemKey (keyBytes p)) (password p) = some pk ∧
      env.crypto.md md msg = some hash ∧ env.crypto.pssSign pk md hash = some full ∧ sig = full.take (env.crypto.bitlen pk / 8)
  | _ => Signs env p msg sig

/-- Header, payload and token fit into the initial capacities (256, 256 and 1024 bytes) of the buffers in which they are composed,
so that none of these has to grow. -/
def SmallToken (env : Env) (p : EncParams) : Prop :=
  ∀ name sch, alg? p.alg = some (name, sch) → (writtenHeader p name).length ≤ 256 ∧ (writtenPayload p).length ≤ 256 ∧
    ∀ msg sig tok, Signed env p msg sig → IsToken tok (writtenHeader p name) (writtenPayload p) sig → tok.length ≤ 1024

end L8w8jwt.Spec
