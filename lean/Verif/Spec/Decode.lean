import Verif.Spec.Encode
import Verif.Model.Decode
/-!
# What the decode functions are documented to do (RFC 7515 section 5.2, RFC 7519 section 7.2), independent of the model

From the model only the data types (parameters, results, cryptographic primitives) are used.
-/

namespace L8w8jwt.Spec

/-- `params->jwt` points to the NUL-terminated text `tok` and `jwt_length` is its length, or counts the terminator too. -/
def TokenMem (p : DecParams) (tok : Bytes) : Prop :=
  (∃ junk, p.jwt = some (tok ++ 0 :: junk)) ∧ 0 ∉ tok ∧ (p.jwtLength = tok.length ∨ p.jwtLength = tok.length + 1) ∧
  tok.length < 2 ^ 63

/-- The text has exactly one dot. -/
def TwoParts (tok a b : Bytes) : Prop := tok = a ++ 46 :: b ∧ 46 ∉ a ∧ 46 ∉ b

/-- The text before the first dot, between the first two dots, and after the second dot (which may contain dots). -/
def ThreeParts (tok a b c : Bytes) : Prop := tok = a ++ 46 :: (b ++ 46 :: c) ∧ 46 ∉ a ∧ 46 ∉ b

/-- The texts of header and payload of a token with one or more dots. -/
def Parts (tok a b : Bytes) : Prop := TwoParts tok a b ∨ ∃ c, ThreeParts tok a b c

/-- What a base64url text stands for. -/
def jsonOf (text : Bytes) : Bytes := (b64Decode true text).getD []

/-- The key bytes given by the caller. -/
def verKey (p : DecParams) : Bytes := (p.verificationKey.getD []).take p.verificationKeyLength

/-- Does the text contain `pat`? -/
def contains (pat s : Bytes) : Prop := ∃ a b, s = a ++ pat ++ b

/-- The public key denoted by the key text: of the certificate, if it is one. -/
def PublicKey (c : Crypto) (k : Bytes) (pk : c.PK) : Prop :=
  (contains (str "-----BEGIN CERTIFICATE-----") (cString k) → c.parseCrt (pemKey k) = some pk) ∧
  (¬ contains (str "-----BEGIN CERTIFICATE-----") (cString k) → c.parsePublicKey (pemKey k) = some pk)

/-- What is found at the start of the buffer a base64url text was decoded into: the decoded octets, the octets made of unused
bits, zeros. -/
def view (text : Bytes) (n : Nat) : Bytes :=
  ((b64Decode true text).getD [] ++ leftover true text ++ List.replicate n 0).take n

/-- The value of a big-endian octet string. -/
def octetsValue (b : Bytes) : Nat := b.foldl (fun a c => a * 256 + c.toNat) 0

/-- A key text that looks like a certificate must be one, whatever the algorithm. -/
def CertOk (c : Crypto) (k : Bytes) : Prop :=
  contains (str "-----BEGIN CERTIFICATE-----") (cString k) → (c.parseCrt (pemKey k)).isSome

/-- The signature check the algorithm prescribes succeeds for signing input `msg` and signature text `text` (base64url).
HMAC, PSS and EdDSA checks look at as many octets as the algorithm prescribes, whatever the length of the signature; keys for
EdDSA are 64 hexadecimal digits (`laxHex` extends their meaning to all characters). -/
def Verifies (env : Env) (alg : Int) (key msg text : Bytes) : Prop :=
  let c := env.crypto
  CertOk c key ∧ ∃ sig, b64Decode true text = some sig ∧
  match alg? alg with
  | none => False
  | some (_, .hmac md) => c.hmac md (hmacKey key) msg = some (view text md.len)
  | some (_, .rsa md) => ∃ pk hash, PublicKey c key pk ∧ c.md md msg = some hash ∧ c.pkVerify pk md hash sig = true
  | some (_, .pss md) => ∃ pk hash, PublicKey c key pk ∧ c.md md msg = some hash ∧
      c.pssVerify pk md hash (view text (c.rsaLen pk)) = true
  | some (_, .ecdsa md _ _ _) => ∃ pk hash, PublicKey c key pk ∧ c.md md msg = some hash ∧ c.ecOk pk = true ∧
      c.ecdsaVerify pk hash (octetsValue (sig.take (sig.length / 2)))
        (octetsValue ((sig.drop (sig.length / 2)).take (sig.length / 2))) = true
  | some (_, .eddsa) => env.eddsa = true ∧ (hmacKey key).length = 64 ∧
      c.edVerify (view text 64) msg (laxHex env.charSigned (hmacKey key)) = true

/-- The signature check cannot be carried out, for the reason with the given return code (retcodes.h): the certificate or the
key cannot be read, hashing fails, the algorithm is not compiled in, or the key has the wrong length. A failing MAC computation
is not among them: it counts as a wrong signature. -/
inductive VerFails (env : Env) (alg : Int) (key msg : Bytes) : Nat → Prop where
  | cert : ¬ CertOk env.crypto key → VerFails env alg key msg Code.keyParse
  | hash {name sch md} : CertOk env.crypto key → alg? alg = some (name, sch) → sch.prehash = some md → env.crypto.md md msg = none →
      VerFails env alg key msg Code.sha2
  | key {name sch md} : CertOk env.crypto key → alg? alg = some (name, sch) → sch.prehash = some md → env.crypto.md md msg ≠ none →
      (∀ pk, ¬ PublicKey env.crypto key pk) → VerFails env alg key msg Code.keyParse
  | ec {name md cv n bits pk} : CertOk env.crypto key → alg? alg = some (name, .ecdsa md cv n bits) → env.crypto.md md msg ≠ none →
      PublicKey env.crypto key pk → env.crypto.ecOk pk = false → VerFails env alg key msg Code.keyParse
  | edOff {name} : CertOk env.crypto key → alg? alg = some (name, .eddsa) → env.eddsa = false → VerFails env alg key msg Code.unsupported
  | edKey {name} : CertOk env.crypto key → alg? alg = some (name, .eddsa) → env.eddsa = true → (hmacKey key).length ≠ 64 →
      VerFails env alg key msg Code.wrongKey

/-- There is room for a terminator behind the key, or it has one. -/
def KeyFits (k : Bytes) : Prop := k.length < 8192 ∨ k.getLast? = some 0

/-- The size of the buffer a base64url text is decoded into. -/
def room (text : Bytes) : Nat := (text.filter (relevant true)).length / 4 * 3 + 16

/-- Checking the signature `text` of `msg` is defined: the search for a certificate ends in the key buffer; key texts that are
parsed have room for a terminator; the key is of the right kind; the buffer of the signature has as many bytes as are looked
at. Each condition is needed only if the check gets that far. -/
structure VerDefined (env : Env) (p : DecParams) (msg text : Bytes) : Prop where
  nul : (verKey p).length < 8192 ∨ 0 ∈ verKey p
  cert : contains (str "-----BEGIN CERTIFICATE-----") (cString (verKey p)) → KeyFits (verKey p)
  pem : CertOk env.crypto (verKey p) → ∀ name sch md, alg? p.alg = some (name, sch) → sch.prehash = some md →
    env.crypto.md md msg ≠ none → KeyFits (verKey p)
  hmac : CertOk env.crypto (verKey p) → ∀ name md, alg? p.alg = some (name, .hmac md) →
    env.crypto.hmac md (hmacKey (verKey p)) msg ≠ none → md.len ≤ room text
  pss : ∀ name md pk, alg? p.alg = some (name, .pss md) → env.crypto.md md msg ≠ none → PublicKey env.crypto (verKey p) pk →
    env.crypto.isRsa pk = true ∧ env.crypto.rsaLen pk ≤ room text
  ecdsa : ∀ name md cv n b pk, alg? p.alg = some (name, .ecdsa md cv n b) → env.crypto.md md msg ≠ none →
    PublicKey env.crypto (verKey p) pk → env.crypto.isEc pk = true
  eddsa : CertOk env.crypto (verKey p) → ∀ name, alg? p.alg = some (name, .eddsa) → env.eddsa = true →
    (hmacKey (verKey p)).length = 64 → 64 ≤ room text

/-- The return code of splitting and decoding the token (without allocation failures). -/
def SegCode (alg : Int) (tok : Bytes) (rc : Nat) : Prop :=
  (46 ∉ tok ∧ rc = Code.format) ∨
  (∃ a b, TwoParts tok a b ∧
    ((b64Decode true a = none ∧ rc = Code.base64) ∨
     (b64Decode true a ≠ none ∧ alg ≠ -1 ∧ rc = Code.missingSignature) ∨
     (b64Decode true a ≠ none ∧ alg = -1 ∧ b64Decode true b = none ∧ rc = Code.base64) ∨
     (b64Decode true a ≠ none ∧ alg = -1 ∧ b64Decode true b ≠ none ∧ rc = Code.success))) ∨
  (∃ a b c, ThreeParts tok a b c ∧
    (((b64Decode true a = none ∨ b64Decode true b = none ∨ b64Decode true c = none) ∧ rc = Code.base64) ∨
     (b64Decode true a ≠ none ∧ b64Decode true b ≠ none ∧ b64Decode true c ≠ none ∧ rc = Code.success)))

/-- The signature is not to be verified, or it is right. -/
def SigOk (env : Env) (p : DecParams) (tok : Bytes) : Prop :=
  p.alg = -1 ∨ (alg? p.alg).isSome ∧ ∃ a b c, ThreeParts tok a b c ∧ Verifies env p.alg (verKey p) (a ++ 46 :: b) c

/-- The key memory is readable. -/
def VerKeyReadable (p : DecParams) : Prop := ∀ mem, p.verificationKey = some mem → p.verificationKeyLength ≤ mem.length

/-- The decoded signature has as many octets as verification reads, and the key is of the kind the algorithm needs. -/
structure SigFits (env : Env) (p : DecParams) (sig : Bytes) : Prop where
  hmac : ∀ name md, alg? p.alg = some (name, .hmac md) → md.len ≤ sig.length + 13
  pss : ∀ name md pk, alg? p.alg = some (name, .pss md) → PublicKey env.crypto (verKey p) pk →
    env.crypto.isRsa pk = true ∧ env.crypto.rsaLen pk ≤ sig.length + 13
  ecdsa : ∀ name md cv n b pk, alg? p.alg = some (name, .ecdsa md cv n b) → PublicKey env.crypto (verKey p) pk →
    env.crypto.isEc pk = true
  eddsa : ∀ name, alg? p.alg = some (name, .eddsa) → (hmacKey (verKey p)).length = 64 → 64 ≤ sig.length + 13

end L8w8jwt.Spec
