/-!
# include/l8w8jwt/retcodes.h, algs.h, claim.h: constants
-/

namespace L8w8jwt

/-- retcodes.h:33 -/ abbrev L8W8JWT_SUCCESS : Nat := 0
/-- retcodes.h:38 -/ abbrev L8W8JWT_NULL_ARG : Nat := 100
/-- retcodes.h:43 -/ abbrev L8W8JWT_INVALID_ARG : Nat := 200
/-- retcodes.h:48 -/ abbrev L8W8JWT_OUT_OF_MEM : Nat := 300
/-- retcodes.h:53 -/ abbrev L8W8JWT_OVERFLOW : Nat := 310
/-- retcodes.h:58 -/ abbrev L8W8JWT_SIGNATURE_CREATION_FAILURE : Nat := 400
/-- retcodes.h:63 -/ abbrev L8W8JWT_SHA2_FAILURE : Nat := 410
/-- retcodes.h:68 -/ abbrev L8W8JWT_KEY_PARSE_FAILURE : Nat := 420
/-- retcodes.h:73 -/ abbrev L8W8JWT_BASE64_FAILURE : Nat := 425
/-- retcodes.h:80 -/ abbrev L8W8JWT_WRONG_KEY_TYPE : Nat := 450
/-- retcodes.h:85 -/ abbrev L8W8JWT_MBEDTLS_CTR_DRBG_SEED_FAILURE : Nat := 500
/-- retcodes.h:90 -/ abbrev L8W8JWT_DECODE_FAILED_INVALID_TOKEN_FORMAT : Nat := 600
/-- retcodes.h:95 -/ abbrev L8W8JWT_DECODE_FAILED_MISSING_SIGNATURE : Nat := 700
/-- retcodes.h:101 -/ abbrev L8W8JWT_UNSUPPORTED_ALG : Nat := 800

/-- claim.h:40 -/ abbrev L8W8JWT_CLAIM_TYPE_STRING : Int := 0
/-- claim.h:45 -/ abbrev L8W8JWT_CLAIM_TYPE_INTEGER : Int := 1
/-- claim.h:50 -/ abbrev L8W8JWT_CLAIM_TYPE_NUMBER : Int := 2
/-- claim.h:55 -/ abbrev L8W8JWT_CLAIM_TYPE_BOOLEAN : Int := 3
/-- claim.h:60 -/ abbrev L8W8JWT_CLAIM_TYPE_NULL : Int := 4
/-- claim.h:65 -/ abbrev L8W8JWT_CLAIM_TYPE_ARRAY : Int := 5
/-- claim.h:70 -/ abbrev L8W8JWT_CLAIM_TYPE_OBJECT : Int := 6
/-- claim.h:75 -/ abbrev L8W8JWT_CLAIM_TYPE_OTHER : Int := 7

/-- algs.h:33 -/ abbrev L8W8JWT_ALG_HS256 : Int := 0
/-- algs.h:38 -/ abbrev L8W8JWT_ALG_HS384 : Int := 1
/-- algs.h:43 -/ abbrev L8W8JWT_ALG_HS512 : Int := 2
/-- algs.h:48 -/ abbrev L8W8JWT_ALG_RS256 : Int := 3
/-- algs.h:53 -/ abbrev L8W8JWT_ALG_RS384 : Int := 4
/-- algs.h:58 -/ abbrev L8W8JWT_ALG_RS512 : Int := 5
/-- algs.h:63 -/ abbrev L8W8JWT_ALG_PS256 : Int := 6
/-- algs.h:68 -/ abbrev L8W8JWT_ALG_PS384 : Int := 7
/-- algs.h:73 -/ abbrev L8W8JWT_ALG_PS512 : Int := 8
/-- algs.h:78 -/ abbrev L8W8JWT_ALG_ES256 : Int := 9
/-- algs.h:83 -/ abbrev L8W8JWT_ALG_ES384 : Int := 10
/-- algs.h:88 -/ abbrev L8W8JWT_ALG_ES512 : Int := 11
/-- algs.h:93 -/ abbrev L8W8JWT_ALG_ES256K : Int := 12
/-- algs.h:98 -/ abbrev L8W8JWT_ALG_ED25519 : Int := 13

/-- encode.h:38, decode.h:39 -/ abbrev L8W8JWT_MAX_KEY_SIZE : Nat := 8192

end L8w8jwt
