import Verif.Model.Jsmn
import Verif.Model.Heap
/-!
# Build configuration and external functions

Everything the modelled code depends on but that is not in /repo: the platform, the build flags, checknum, mbedTLS and
ed25519. All of it is a parameter: theorems are for every `Env` unless they state a hypothesis about it.
-/

namespace L8w8jwt

/-- `mbedtls_md_type_t`, as far as used (encode.c:37-72, decode.c:42-78). -/
inductive Md where
  | sha256 | sha384 | sha512
  deriving DecidableEq, Repr

/-- Digest length in bytes (encode.c:46,55,64). -/
def Md.len : Md → Nat
  | .sha256 => 32
  | .sha384 => 48
  | .sha512 => 64

/-- `mbedtls_ecp_group_id`, as far as used (encode.c:428,440,452,464). -/
inductive Curve where
  | secp256r1 | secp384r1 | secp521r1 | secp256k1 | other (n : Nat)
  deriving DecidableEq, Repr

/-- mbedTLS and ed25519. `PK` is the type of parsed keys. Functions returning `Option` return `none` for an error code.
Memory used internally by these libraries is not modelled. -/
structure Crypto where
  PK : Type
  /-- `mbedtls_ctr_drbg_seed` succeeds -/
  seedOk : Bool
  /-- `mbedtls_md_hmac(md, key, msg)` -/
  hmac : Md → Bytes → Bytes → Option Bytes
  /-- `mbedtls_md(md, msg)` -/
  md : Md → Bytes → Option Bytes
  /-- `mbedtls_pk_parse_key(key, password)` -/
  parseKey : Bytes → Option Bytes → Option PK
  /-- `mbedtls_pk_parse_public_key(key)` -/
  parsePublicKey : Bytes → Option PK
  /-- `mbedtls_x509_crt_parse(key)`, then `crt.pk` -/
  parseCrt : Bytes → Option PK
  /-- `mbedtls_pk_can_do(pk, MBEDTLS_PK_RSA) || mbedtls_pk_can_do(pk, MBEDTLS_PK_RSA_ALT)` -/
  canRsa : PK → Bool
  /-- `mbedtls_pk_can_do(pk, MBEDTLS_PK_RSASSA_PSS)` -/
  canPss : PK → Bool
  /-- `mbedtls_pk_can_do(pk, MBEDTLS_PK_ECDSA)` -/
  canEcdsa : PK → Bool
  /-- `mbedtls_pk_get_bitlen` -/
  bitlen : PK → Nat
  /-- `mbedtls_pk_rsa(pk) != NULL` -/
  isRsa : PK → Bool
  /-- `mbedtls_pk_ec(pk) != NULL` -/
  isEc : PK → Bool
  /-- `mbedtls_pk_sign(pk, md, hash)` -/
  pkSign : PK → Md → Bytes → Option Bytes
  /-- `mbedtls_pk_verify(pk, md, hash, sig) == 0` -/
  pkVerify : PK → Md → Bytes → Bytes → Bool
  /-- length in bytes of the modulus (`mbedtls_rsa_get_len`): what the PSS functions write and read -/
  rsaLen : PK → Nat
  /-- `mbedtls_rsa_rsassa_pss_sign(rsa, md, hash)` -/
  pssSign : PK → Md → Bytes → Option Bytes
  /-- `mbedtls_rsa_rsassa_pss_verify(rsa, md, hash, sig) == 0` -/
  pssVerify : PK → Md → Bytes → Bytes → Bool
  /-- `mbedtls_ecdsa_from_keypair` succeeds -/
  ecOk : PK → Bool
  /-- `grp.id` -/
  grpId : PK → Curve
  /-- `mbedtls_ecdsa_sign`: r and s -/
  ecdsaSign : PK → Bytes → Option (Nat × Nat)
  /-- `mbedtls_ecdsa_verify(hash, r, s) == 0` -/
  ecdsaVerify : PK → Bytes → Nat → Nat → Bool
  /-- `ed25519_sign_ref10(msg, private_key)`: the 64 bytes written -/
  edSign : Bytes → Bytes → Bytes
  /-- `ed25519_verify(sig, msg, public_key) != 0` -/
  edVerify : Bytes → Bytes → Bytes → Bool

/-- Platform and build. -/
structure Env where
  /-- plain `char` is signed -/
  charSigned : Bool
  /-- `L8W8JWT_ENABLE_EDDSA` -/
  eddsa : Bool
  /-- `L8W8JWT_SMALL_STACK` (version.h:50-56) -/
  smallStack : Bool
  /-- `l8w8jwt_time(NULL)` (timehelper.h) -/
  now : Int
  /-- uninitialised token slots (decode.c:244-245) -/
  garbage : Nat → Tok
  /-- `checknum` (lib/checknum, submodule): 1 = integer, 2 = number -/
  checknum : Bytes → Nat
  crypto : Crypto

end L8w8jwt
