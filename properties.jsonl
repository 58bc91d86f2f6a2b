{"id": "C01", "title": "Base64 round trip", "statement": "For every non-empty byte string, l8w8jwt_base64_decode applied to the output of l8w8jwt_base64_encode (same url flag, either value; decoding out_length bytes) succeeds and returns exactly the original bytes and length.", "quantifier": "every byte string of every length (below the size where the encoder itself reports overflow), both alphabets", "why_tests_cant": "infinitely many inputs; the three tail lengths, the 72-column line wrapping and the dropped padding interact at every length", "anchors": ["src/base64.c:l8w8jwt_base64_encode", "src/base64.c:l8w8jwt_base64_decode"]}
{"id": "C02", "title": "Base64 encoder conforms to RFC 4648", "statement": "In url mode the returned text is exactly the unpadded RFC 4648 section 5 encoding of the data (alphabet A-Za-z0-9-_ only); in standard mode it is the padded section 4 encoding broken by a newline after every 72 characters and ended by a newline. out_length is the number of characters and the character at out_length is NUL.", "quantifier": "every non-empty byte string, both modes", "why_tests_cant": "unit tests compare a handful of literals; conformance is a statement about all inputs", "anchors": ["src/base64.c:l8w8jwt_base64_encode"]}
{"id": "C03", "title": "Base64 encoder never writes outside its allocation", "statement": "For every data_length representable in size_t, l8w8jwt_base64_encode either returns an error or allocates at least as many bytes as it writes (text, newlines and NUL); it returns L8W8JWT_OVERFLOW exactly when data_length is at least a quarter of the size_t range.", "quantifier": "every 64-bit data_length, both modes, including those for which data_length*4 wraps around", "why_tests_cant": "the size computation is tight (equality is reached) and wraps modulo 2^64; no test can allocate such inputs", "anchors": ["src/base64.c:l8w8jwt_base64_encode"]}
{"id": "C04", "title": "Base64 decoder stays in bounds", "statement": "For every input object and every data_length not larger than the object, l8w8jwt_base64_decode reads only the first data_length bytes, writes only inside the buffer it allocated, and the byte after the out_length decoded bytes is still inside that buffer.", "quantifier": "every input byte string, both modes", "why_tests_cant": "all byte strings, including stray padding and non-alphabet bytes", "anchors": ["src/base64.c:l8w8jwt_base64_decode"]}
{"id": "C05", "title": "Base64 decoder acceptance and result are determined by the alphabet characters", "statement": "Characters that are neither in the selected alphabet nor '=' have no influence: decoding a string gives the same return code and the same bytes as decoding it with those characters removed (one trailing NUL is also ignored). The decoder rejects with L8W8JWT_INVALID_ARG exactly: no relevant character, count = 1 mod 4, count not a multiple of 4 in standard mode, or a first padded group with more than two '='.", "quantifier": "every input byte string, both modes", "why_tests_cant": "quantifies over all placements of junk characters", "anchors": ["src/base64.c:l8w8jwt_base64_decode"]}
{"id": "C06", "title": "Successful base64 decoding is never empty", "statement": "Whenever l8w8jwt_base64_decode returns L8W8JWT_SUCCESS, out_length is at least 1. (The signature verifier skips verification for an empty signature, so this is what prevents a signature-stripping bypass.)", "quantifier": "every input byte string, both modes", "why_tests_cant": "a single accepted string that decodes to nothing would disable signature verification", "anchors": ["src/base64.c:l8w8jwt_base64_decode", "src/decode.c:l8w8jwt_verify_signature"]}
{"id": "C07", "title": "Base64 decoder output is NUL-terminated", "statement": "The header promises that the decoded buffer is NUL-terminated at out_length. This must hold for every accepted input.", "quantifier": "every accepted input string", "why_tests_cant": "fails only for non-canonical final groups, which no sample-based test contains", "anchors": ["include/l8w8jwt/base64.h", "src/base64.c:l8w8jwt_base64_decode"]}
{"id": "C08", "title": "Hex decoding is correct and bounded", "statement": "For every string of hex digits (any mix of upper and lower case, optionally followed by one NUL counted in the length), l8w8jwt_hexstr2bin returns 0, writes exactly the bytes the digits denote followed by a NUL, writes at most output_size bytes, and reports half the number of digits. Odd lengths give 2, a too small buffer 3, NULL/zero-length arguments 1.", "quantifier": "every hex string, every output_size", "why_tests_cant": "all 256 digit-pair values, every length and every buffer size", "anchors": ["src/util.c:l8w8jwt_hexstr2bin"]}
{"id": "C09", "title": "Hex decoding rejects non-hex input", "statement": "A string containing a character that is not a hexadecimal digit is reported as invalid (return code 2), as the header documents.", "quantifier": "every string containing a non-hex character", "why_tests_cant": "tests only pass well-formed keys", "anchors": ["include/l8w8jwt/util.h", "src/util.c:l8w8jwt_hexstr2bin"]}
{"id": "C10", "title": "Case-insensitive comparison", "statement": "l8w8jwt_strncmpic(a, b, n) returns 0 if and only if the first n characters of the two C strings (or the whole strings, if shorter) are equal up to ASCII letter case.", "quantifier": "every pair of C strings and every n", "why_tests_cant": "infinitely many pairs; the corner cases are n = 0 and two empty strings", "anchors": ["include/l8w8jwt/util.h", "src/util.c:l8w8jwt_strncmpic"]}
{"id": "C11", "title": "Claim strings cannot break out of their JSON string", "statement": "Whatever bytes a caller puts into a claim key or a string claim value, the text written between the quotes is a single JSON string body: a JSON lexer started after the opening quote ends exactly at the closing quote that l8w8jwt_write_claims wrote.", "quantifier": "every key/value byte string (for which the call is defined)", "why_tests_cant": "injection safety is a claim about all adversarial strings", "anchors": ["src/claim.c:l8w8jwt_escape_claim_string", "src/claim.c:l8w8jwt_write_claims"]}
{"id": "C12", "title": "Escape/unescape round trip", "statement": "A claim string written by the encoder and read back by the decoder is the original string.", "quantifier": "every claim string", "why_tests_cant": "holds for most strings but not for control characters written as \\uXXXX, which the decoder leaves undecoded", "anchors": ["src/claim.c:l8w8jwt_escape_claim_string", "src/decode.c:l8w8jwt_unescape_string"]}
{"id": "C13", "title": "Claim writing is defined for every claim string", "statement": "l8w8jwt_write_claims has defined behaviour for every byte content of keys and string values, in particular for UTF-8 text.", "quantifier": "every byte string, both signednesses of char", "why_tests_cant": "the table lookup is indexed by a plain char: whether it is out of bounds depends on platform and data", "anchors": ["src/claim.c:l8w8jwt_escape_claim_string"]}
{"id": "C14", "title": "write_claims writes exactly the members", "statement": "l8w8jwt_write_claims appends to the buffer the comma-separated list of \"key\":value members of the claims whose key is not NULL, in order, nothing else; string values are quoted and escaped, all other types copied verbatim; a zero length means strlen. NULL arguments give L8W8JWT_NULL_ARG and a zero count L8W8JWT_INVALID_ARG without touching the buffer.", "quantifier": "every claims array and initial buffer content", "why_tests_cant": "arbitrary arrays with arbitrary NULL-key gaps", "anchors": ["src/claim.c:l8w8jwt_write_claims"]}
{"id": "C15", "title": "Claim lookup finds the claim with that key", "statement": "l8w8jwt_get_claim returns the first claim whose key equals the requested key, and NULL if there is none.", "quantifier": "every claims array and key", "why_tests_cant": "the implementation compares only a prefix; a test with disjoint keys cannot see it", "anchors": ["include/l8w8jwt/claim.h", "src/claim.c:l8w8jwt_get_claim"]}
{"id": "C16", "title": "Encoding parameter validation", "statement": "l8w8jwt_validate_encoding_params returns L8W8JWT_NULL_ARG exactly if params, secret_key, out or out_length is NULL, otherwise L8W8JWT_INVALID_ARG exactly if the key length is 0 or above 8192 or a non-NULL claims array has count 0, otherwise L8W8JWT_SUCCESS; l8w8jwt_encode returns that code unchanged in the error case.", "quantifier": "every parameter struct", "why_tests_cant": "every combination of pointers and lengths", "anchors": ["src/encode.c:l8w8jwt_validate_encoding_params", "src/encode.c:l8w8jwt_encode"]}
{"id": "C17", "title": "Token shape", "statement": "When l8w8jwt_encode succeeds, the token is BASE64URL(header) '.' BASE64URL(payload) '.' BASE64URL(signature): exactly two dots, all other characters from the base64url alphabet, three non-empty segments, NUL-terminated at out_length.", "quantifier": "every parameter struct for which encoding succeeds, every allocation outcome that leaves the buffers intact", "why_tests_cant": "all inputs", "anchors": ["src/encode.c:l8w8jwt_encode", "src/encode.c:write_header_and_payload", "src/encode.c:write_signature", "src/encode.c:write_token"]}
{"id": "C18", "title": "The header names the algorithm that was used", "statement": "The header of an encoded token is the JSON object {\"alg\":NAME,\"typ\":\"JWT\",...} where NAME is the RFC 7518/8037 name of params.alg, followed by the additional header claims; different algorithms give different names.", "quantifier": "all 14 algorithm ids and every additional header claim list", "why_tests_cant": "must hold for all algorithms and arbitrary extra claims", "anchors": ["src/encode.c:write_header_and_payload", "include/l8w8jwt/algs.h"]}
{"id": "C19", "title": "No unsigned or unknown-algorithm tokens are produced", "statement": "l8w8jwt_encode returns success only if params.alg is one of the 14 supported ids; for every other id (including the default -2 set by l8w8jwt_encoding_params_init, and -1) it returns an error and leaves *out and *out_length untouched.", "quantifier": "every integer alg and every parameter struct", "why_tests_cant": "2^32 algorithm values", "anchors": ["src/encode.c:l8w8jwt_encode", "src/encode.c:write_header_and_payload", "src/encode.c:l8w8jwt_encoding_params_init"]}
{"id": "C20", "title": "The payload JSON is well formed", "statement": "For every parameter struct with well-formed claim values, the payload produced by l8w8jwt_encode is a syntactically valid JSON object whose members are exactly the given registered claims followed by the additional claims.", "quantifier": "every combination of present/absent registered claims, explicit/implicit lengths and additional claims", "why_tests_cant": "2^n combinations of optional fields; the separator decision looks at lengths, not at presence", "anchors": ["src/encode.c:write_header_and_payload"]}
{"id": "C21", "title": "Registered time claims are written faithfully", "statement": "iat, nbf and exp are omitted exactly when zero and otherwise appear as the decimal representation of the given number of seconds.", "quantifier": "every 64-bit time value", "why_tests_cant": "2^64 values per field; negative values differ from their printed form", "anchors": ["src/encode.c:write_header_and_payload"]}
{"id": "C22", "title": "The signature covers header and payload", "statement": "The signature segment of an encoded token is the signature, under the algorithm selected by params.alg and the given key, of exactly the bytes of the token before its second dot.", "quantifier": "every parameter struct and every behaviour of the cryptographic primitives", "why_tests_cant": "needs to hold for all tokens; a test only compares a few known-answer tokens", "anchors": ["src/encode.c:write_signature", "src/encode.c:md_info_from_alg"]}
{"id": "C23", "title": "Unsuitable keys are refused when signing", "statement": "Signing succeeds for RS*/PS* only with an RSA-capable key of at least 2048 bits, for ES256/ES384/ES512/ES256K only with an ECDSA key on exactly P-256/P-384/P-521/secp256k1, and for EdDSA only with a 128-digit key; otherwise an error is returned and no token is written.", "quantifier": "every key and every algorithm", "why_tests_cant": "all keys", "anchors": ["src/encode.c:write_signature"]}
{"id": "C24", "title": "Failed encoding leaves no output", "statement": "If l8w8jwt_encode returns anything but L8W8JWT_SUCCESS then *out_length is not written and *out does not point to a token.", "quantifier": "every parameter struct, every allocation-failure point, every crypto failure", "why_tests_cant": "every failure point", "anchors": ["src/encode.c:l8w8jwt_encode", "src/encode.c:write_token"]}
{"id": "C25", "title": "Encoder does not leak", "statement": "On return from l8w8jwt_encode every block allocated during the call has been freed exactly once, except the token handed to the caller on success.", "quantifier": "every parameter struct and every schedule of allocation failures", "why_tests_cant": "needs every combination of failure points", "anchors": ["src/encode.c:l8w8jwt_encode", "src/encode.c:write_header_and_payload", "src/encode.c:write_signature"]}
{"id": "C26", "title": "Success means the intact token, even when memory runs out", "statement": "If l8w8jwt_encode returns L8W8JWT_SUCCESS, the token is complete, whatever allocations failed during the call.", "quantifier": "every schedule of allocation failures", "why_tests_cant": "requires injecting a failure at every allocation", "anchors": ["src/encode.c:write_header_and_payload", "src/claim.c:l8w8jwt_write_claims"]}
{"id": "C27", "title": "Decoding parameter validation", "statement": "l8w8jwt_validate_decoding_params returns L8W8JWT_NULL_ARG exactly if params, jwt or verification_key is NULL; otherwise L8W8JWT_INVALID_ARG exactly if jwt_length or the key length is 0 or the key is longer than 8192; otherwise L8W8JWT_UNSUPPORTED_ALG exactly for EdDSA in a build without EdDSA; otherwise success. The decode functions return these codes unchanged.", "quantifier": "every parameter struct", "why_tests_cant": "every combination", "anchors": ["src/decode.c:l8w8jwt_validate_decoding_params", "src/decode.c:l8w8jwt_decode"]}
{"id": "C28", "title": "A token accepted without the signature flag has a verified signature", "statement": "If l8w8jwt_decode (or decode_raw) returns success and the validation result does not contain L8W8JWT_SIGNATURE_VERIFICATION_FAILURE, then the cryptographic verification for params.alg with the given key succeeded on the bytes of the token before its second dot and the decoded third segment.", "quantifier": "every token, key, algorithm id other than -1, claim set, allocation schedule", "why_tests_cant": "a security property: must hold for all adversarial tokens and for every algorithm id, including ids outside the table", "anchors": ["src/decode.c:l8w8jwt_decode", "src/decode.c:l8w8jwt_verify_signature", "src/decode.c:l8w8jwt_decode_segments"]}
{"id": "C29", "title": "HMAC acceptance is equality with the MAC", "statement": "For HS256/384/512, a token is accepted exactly when its signature bytes equal the HMAC of the signing input; in particular no other signature bytes are accepted for the same signing input.", "quantifier": "every token and key", "why_tests_cant": "all candidate signatures; the comparison looks at a fixed number of bytes, not at the signature's length", "anchors": ["src/decode.c:l8w8jwt_verify_signature"]}
{"id": "C30", "title": "The token cannot choose its verification algorithm", "statement": "Which verification is performed depends only on the caller's params.alg and key: two tokens with the same signing input and signature are treated alike, and the token's own alg/typ/crv header members have no influence on the signature flag.", "quantifier": "every token and header content", "why_tests_cant": "algorithm confusion is a property of all headers", "anchors": ["src/decode.c:l8w8jwt_verify_signature"]}
{"id": "C31", "title": "Missing and empty signatures are errors", "statement": "With alg different from -1, a token with a decodable header and no second dot gives L8W8JWT_DECODE_FAILED_MISSING_SIGNATURE, a token whose third segment is empty or undecodable gives L8W8JWT_BASE64_FAILURE, and a token without any dot gives L8W8JWT_DECODE_FAILED_INVALID_TOKEN_FORMAT; none yields a validation result of VALID.", "quantifier": "every token string", "why_tests_cant": "all strings", "anchors": ["src/decode.c:l8w8jwt_decode_segments"]}
{"id": "C32", "title": "Decoding fails closed", "statement": "Whenever l8w8jwt_decode or l8w8jwt_decode_raw returns an error after parameter validation, *out_validation_result is ~L8W8JWT_VALID (all failure bits set) and no claims are handed out; *out_claims is written only on success.", "quantifier": "every token, key, allocation-failure schedule", "why_tests_cant": "every failure path", "anchors": ["src/decode.c:l8w8jwt_decode", "src/decode.c:l8w8jwt_decode_raw"]}
{"id": "C33", "title": "Claim validation flags are exact", "statement": "For iss, sub, aud, jti: the flag is set exactly if the caller asked for validation and the token has no such claim or its value differs from the expected string (length 0 means strlen). For exp/nbf/iat: set exactly if asked for and the claim is missing, or now - tolerance > exp, or now + tolerance < nbf/iat. For typ: set exactly if asked for and missing or different ignoring case. No other flag is ever set by claim validation.", "quantifier": "every claim list, every expected value, every clock value and tolerance", "why_tests_cant": "every combination of 8 independent checks over arbitrary data", "anchors": ["src/decode.c:l8w8jwt_validate_claims"]}
{"id": "C34", "title": "Expiry is monotone in time and tolerance", "statement": "Once a token is rejected as expired it stays rejected at every later time; a token accepted for nbf/iat stays accepted later; raising a tolerance never turns an accepted token into a rejected one.", "quantifier": "every pair of clock values and tolerances, every claim list", "why_tests_cant": "all pairs of times", "anchors": ["src/decode.c:l8w8jwt_validate_claims"]}
{"id": "C35", "title": "Time claims are interpreted by their numeric value", "statement": "exp, nbf and iat are compared by the number the JSON value denotes.", "quantifier": "every JSON value of a time claim", "why_tests_cant": "strtoll only reads a leading decimal integer and saturates: exponents, fractions, strings and out-of-range numbers deviate", "anchors": ["src/decode.c:l8w8jwt_validate_claims"]}
{"id": "C36", "title": "decode and decode_raw agree", "statement": "On the same token and parameters l8w8jwt_decode and l8w8jwt_decode_raw return the same code and the same validation result; whenever decode_raw_no_validation succeeds, decode_raw hands out the same header, payload and signature bytes, and when it fails decode_raw fails with the same code (unless memory runs out).", "quantifier": "every token and parameter struct", "why_tests_cant": "all inputs", "anchors": ["src/decode.c:l8w8jwt_decode", "src/decode.c:l8w8jwt_decode_raw", "src/decode.c:l8w8jwt_decode_raw_no_validation"]}
{"id": "C37", "title": "Raw decoding returns the three segments", "statement": "On success l8w8jwt_decode_raw_no_validation returns exactly the base64url decoding of the token's three dot-separated segments, and for a token produced by l8w8jwt_encode these are the header JSON, the payload JSON and the signature.", "quantifier": "every token", "why_tests_cant": "all tokens", "anchors": ["src/decode.c:l8w8jwt_decode_raw_no_validation", "src/decode.c:l8w8jwt_decode_segments"]}
{"id": "C38", "title": "jwt_length may include the terminator", "statement": "Passing strlen(jwt)+1 instead of strlen(jwt) as jwt_length does not change the outcome of any decode function.", "quantifier": "every token with a third segment not ending in NUL", "why_tests_cant": "all tokens", "anchors": ["src/decode.c:l8w8jwt_decode_segments", "src/base64.c:l8w8jwt_base64_decode"]}
{"id": "C39", "title": "HMAC keys: terminator and symmetry", "statement": "A key passed with or without its trailing NUL yields the same HMAC, on both the signing and the verifying side, and signer and verifier derive the same HMAC key from the same parameters.", "quantifier": "every key of 1..8191 bytes", "why_tests_cant": "all keys and lengths", "anchors": ["src/encode.c:write_signature", "src/decode.c:l8w8jwt_verify_signature"]}
{"id": "C40", "title": "End-to-end: signed tokens verify", "statement": "A token produced by l8w8jwt_encode is decoded by l8w8jwt_decode with the same algorithm and the matching key without the signature failure flag, for HS*, RS*, PS*, ES* and EdDSA, provided the primitives are correct (verification accepts signatures made by the matching key).", "quantifier": "every parameter struct within the documented limits, every key pair", "why_tests_cant": "all claim contents and keys", "anchors": ["src/encode.c:l8w8jwt_encode", "src/decode.c:l8w8jwt_decode"]}
{"id": "C41", "title": "End-to-end: claims survive", "statement": "Decoding an encoded token yields exactly the header members followed by the registered and additional claims, in order, with the same keys, values and types.", "quantifier": "every list of claims (string, integer, number, boolean, null, array, object values)", "why_tests_cant": "needs the composition of escaping, base64, JSON tokenising, type inference and unescaping for all inputs", "anchors": ["src/encode.c:l8w8jwt_encode", "src/decode.c:l8w8jwt_decode", "src/decode.c:l8w8jwt_parse_claims"]}
{"id": "C42", "title": "Nested members are not top-level claims", "statement": "Members of a nested object or array value never appear as claims of their own and never take part in claim validation; the composite value is returned as its exact source text.", "quantifier": "every nesting depth and every JSON document", "why_tests_cant": "unbounded nesting", "anchors": ["src/decode.c:l8w8jwt_parse_claims"]}
{"id": "C43", "title": "A string claim cannot forge another claim", "statement": "No content of a caller-supplied string claim changes the number, keys, order or types of the claims the decoder reports for the token.", "quantifier": "every string content", "why_tests_cant": "all adversarial strings", "anchors": ["src/claim.c:l8w8jwt_write_claims", "src/decode.c:l8w8jwt_parse_claims"]}
{"id": "C44", "title": "Token-array handling is memory safe and deterministic", "statement": "Parsing the header/payload JSON never reads a token slot outside the token array and its result does not depend on uninitialised slots.", "quantifier": "every header/payload JSON, every content of the uninitialised memory", "why_tests_cant": "the out-of-range slot is read only for particular token counts (64, or more than 64) and its content is whatever the stack held", "anchors": ["src/decode.c:l8w8jwt_parse_claims"]}
{"id": "C45", "title": "Only JSON objects with string keys are accepted", "statement": "If parsing succeeds, each of header and payload is a JSON object with string keys (no claims are invented); anything else is L8W8JWT_DECODE_FAILED_INVALID_TOKEN_FORMAT.", "quantifier": "every decoded header/payload byte string", "why_tests_cant": "all byte strings; the tokenizer is lenient", "anchors": ["src/decode.c:l8w8jwt_parse_claims"]}
{"id": "C46", "title": "Claim types are inferred from the JSON value", "statement": "Decoded claims have type STRING for JSON strings, OBJECT/ARRAY for composites, BOOLEAN for true/false, NULL for null, INTEGER/NUMBER as classified by the number checker, and any other primitive is an error.", "quantifier": "every primitive token", "why_tests_cant": "all primitive texts", "anchors": ["src/decode.c:l8w8jwt_parse_claims"]}
{"id": "C47", "title": "Decoding is memory safe on hostile tokens", "statement": "For every NUL-terminated token with matching jwt_length and every valid key, l8w8jwt_decode has no out-of-bounds access.", "quantifier": "every token, algorithm and key", "why_tests_cant": "depends on the length of the attacker-supplied signature relative to fixed-size reads", "anchors": ["src/decode.c:l8w8jwt_verify_signature", "src/decode.c:l8w8jwt_decode_segments"]}
{"id": "C48", "title": "Keys up to the documented maximum are handled in bounds", "statement": "Every key length accepted by parameter validation (1..8192) is processed without reading outside the internal key buffer.", "quantifier": "every accepted key length and content", "why_tests_cant": "only the extreme length misbehaves", "anchors": ["src/encode.c:write_signature", "src/decode.c:l8w8jwt_verify_signature"]}
{"id": "C49", "title": "Decoder does not leak", "statement": "On return from the decode functions every block allocated during the call has been freed exactly once, except the buffers handed to the caller; l8w8jwt_free_claims on the returned claims releases all of them.", "quantifier": "every token, every schedule of allocation failures", "why_tests_cant": "requires adversarial tokens and failure injection at every allocation", "anchors": ["src/decode.c:l8w8jwt_decode", "src/decode.c:l8w8jwt_decode_raw", "src/decode.c:l8w8jwt_parse_claims", "src/claim.c:l8w8jwt_free_claims"]}
{"id": "C50", "title": "ECDSA signatures are fixed-width and invertible", "statement": "For ES256/ES256K/ES384/ES512 the signature is the fixed-width big-endian concatenation of r and s (64/64/96/132 bytes) and the decoder recovers exactly r and s from it.", "quantifier": "every r, s that fit", "why_tests_cant": "small values need left padding; probability of a test hitting them is 2^-8 per signature", "anchors": ["src/encode.c:write_signature", "src/decode.c:l8w8jwt_verify_signature"]}
{"id": "C51", "title": "RSA-PSS signatures are emitted in full", "statement": "For PS256/384/512 the emitted signature is the complete signature (modulus length in bytes).", "quantifier": "every RSA key of at least 2048 bits", "why_tests_cant": "only moduli whose bit length is not a multiple of 8 misbehave", "anchors": ["src/encode.c:write_signature"]}
{"id": "C52", "title": "Encoding succeeds whenever it can", "statement": "With valid parameters, a supported algorithm, a key the algorithm accepts, and no allocation failure, l8w8jwt_encode returns L8W8JWT_SUCCESS and the token is exactly base64url(header).base64url(payload).base64url(signature) of the header and payload text determined by the parameters.", "quantifier": "every parameter set and key", "why_tests_cant": "tests pass only chosen parameter combinations; absence of spurious failures needs all of them", "anchors": ["src/encode.c:l8w8jwt_encode"]}
{"id": "C53", "title": "Encoding is memory safe", "statement": "For every parameter set that passes validation and whose pointers are readable for the stated lengths, l8w8jwt_encode performs no undefined operation, whatever allocations fail.", "quantifier": "every parameter set, every schedule of allocation failures", "why_tests_cant": "needs every input and failure injection at every allocation", "anchors": ["src/encode.c:l8w8jwt_encode", "src/claim.c:l8w8jwt_write_claims"]}
{"id": "C54", "title": "Tokens are validated as they were meant", "statement": "If a token made by l8w8jwt_encode is decoded with the same algorithm and a matching key, then each of the flags for iss, sub, aud, jti, exp, nbf, iat is set exactly if the value given to the encoder differs from the expected one, or lies in the past or future of the current time as the claim prescribes, within the tolerance.", "quantifier": "every parameter set of the encoder, every expectation, tolerance and current time", "why_tests_cant": "relates two programs over all claims, all tolerances, all clock values", "anchors": ["src/encode.c:l8w8jwt_encode", "src/decode.c:l8w8jwt_decode"]}
{"id": "C55", "title": "Key copies are wiped and crypto objects are released exactly once", "statement": "On every path through write_signature and l8w8jwt_verify_signature, every local mbedTLS object is initialised before use, not used after release, and everything that may own memory is released exactly once (the key inside a certificate only with the certificate); when the function returns, its copies of the key (and of the decoded EdDSA private key) have been zeroed.", "quantifier": "every parameter set, every answer of the crypto library", "why_tests_cant": "each error path would have to be forced by failure injection inside mbedTLS; leftover key material on the stack is invisible to tests", "anchors": ["src/encode.c:write_signature", "src/decode.c:l8w8jwt_verify_signature"]}
{"id": "C56", "title": "Decoded claims can be released, and nothing of them is left behind", "statement": "l8w8jwt_free_claims, called with the array and number that a successful l8w8jwt_decode handed out, is defined and releases every block that decoding left allocated (unless growing the claims buffer failed); every key and value block it releases, also when the decoder itself discards the claims, has been completely overwritten with zeros.", "quantifier": "every token, parameter set and schedule of allocation failures", "why_tests_cant": "the content of released memory is not observable by tests; needs all tokens and all escapes", "anchors": ["src/claim.c:l8w8jwt_free_claims", "src/decode.c:l8w8jwt_unescape_claim", "src/decode.c:l8w8jwt_decode"]}
{"id": "C57", "title": "The decoder reads a fixed relaxation of JSON", "statement": "For every text there is exactly one answer to what l8w8jwt_decode makes of a header or payload with that text: it accepts sequences of strings, words and bracketed sequences, separated by any white space, commas and colons, of which the first is in braces (or nothing but gaps and closing brackets), and takes the items of the first and those after it as claims, two by two. A token whose parts can be decoded and whose signature is right is accepted exactly if both texts are accepted; the claims are those found, in order. JSON objects are among the accepted texts, with their members as claims.", "quantifier": "every byte string as header and payload", "why_tests_cant": "tests sample texts; the set of accepted non-JSON texts is infinite and its description a language-theoretic statement", "anchors": ["src/decode.c:l8w8jwt_parse_claims", "src/decode.c:l8w8jwt_decode", "lib/jsmn/jsmn.h:jsmn_parse"]}
{"id": "C58", "title": "Every failure is reported by its documented code", "statement": "With valid and readable parameters and no allocation failure, the code returned by l8w8jwt_encode, l8w8jwt_decode and l8w8jwt_decode_raw is determined by the reason of the failure, as documented in retcodes.h: unknown algorithm, no entropy, unreadable key, key of the wrong kind, size or curve, failing hash, failing signature primitive, algorithm not built in; token without dot, without signature, with undecodable segment, certificate or key that cannot be parsed, malformed header or payload; and L8W8JWT_SUCCESS exactly if none of these applies. The reasons are ranked, so that there is exactly one code.", "quantifier": "every parameter set, token, key and answer of the crypto library", "why_tests_cant": "the reasons concern answers of the crypto library and can be combined; tests cannot show that no other code is ever returned", "anchors": ["src/encode.c:l8w8jwt_encode", "src/encode.c:write_signature", "src/decode.c:l8w8jwt_decode", "src/decode.c:l8w8jwt_verify_signature"]}
{"id": "C59", "title": "The base64 functions return exactly the documented code", "statement": "l8w8jwt_base64_encode returns L8W8JWT_NULL_ARG if a pointer is NULL, else L8W8JWT_INVALID_ARG for no input, else L8W8JWT_OVERFLOW if the input is too long to be encoded, else L8W8JWT_OUT_OF_MEM if the allocation fails, else L8W8JWT_SUCCESS. l8w8jwt_base64_decode returns L8W8JWT_NULL_ARG for NULL pointers, L8W8JWT_INVALID_ARG exactly for texts that are not base64, and L8W8JWT_OUT_OF_MEM if the allocation fails. On failure neither writes *out_length or leaves a block allocated.", "quantifier": "every text and length, every combination of NULL arguments, and every outcome of the allocation", "why_tests_cant": "tests cannot try lengths near 2^62 or all texts", "anchors": ["src/base64.c:l8w8jwt_base64_encode", "src/base64.c:l8w8jwt_base64_decode"]}
{"id": "C60", "title": "Lack of memory is reported as lack of memory", "statement": "If an allocation fails during l8w8jwt_encode, l8w8jwt_decode or l8w8jwt_decode_raw, the call returns L8W8JWT_OUT_OF_MEM or what it would have returned anyway; no other code is ever caused by a failing allocation.", "quantifier": "every parameter set, token, key, answer of the crypto library and every schedule of allocation failures", "why_tests_cant": "tests would have to make every single allocation fail, for every kind of input", "anchors": ["src/encode.c:l8w8jwt_encode", "src/encode.c:write_signature", "src/decode.c:l8w8jwt_decode", "src/decode.c:l8w8jwt_decode_segments", "src/decode.c:l8w8jwt_parse_claims"]}
{"id": "C61", "title": "Undefined behaviour of the decoder is characterised exactly", "statement": "For readable parameters and without allocation failures, l8w8jwt_decode and l8w8jwt_decode_raw are free of undefined behaviour for all contents of uninitialised memory if and only if, in a token whose segments can be decoded: the key has fewer than 8192 bytes or ends as needed where it is parsed; the decoded signature is not shorter than the number of bytes the algorithm reads (HMAC, RSA-PSS, EdDSA); a PS* key is an RSA key and an ES* key is an EC key; and, if the signature is not found to be bad, parsing the claims needs no more token slots than exist, and the comparison of typ reaches no byte from 0x80 to 0xFE where char is signed. Each condition counts only if decoding gets that far.", "quantifier": "every token, key, parameter set, content of uninitialised memory and answer of the crypto library", "why_tests_cant": "undefined behaviour can go unnoticed in tests, and its absence for all other inputs cannot be tested", "anchors": ["src/decode.c:l8w8jwt_decode", "src/decode.c:l8w8jwt_decode_raw", "src/decode.c:l8w8jwt_verify_signature", "src/decode.c:l8w8jwt_parse_claims"]}
{"id": "C62", "title": "Everything decoding tells the caller is determined by a specification", "statement": "For readable parameters, without allocation failures, and where decoding is free of undefined behaviour, l8w8jwt_decode returns exactly what a specification says: the return code; all validation flags set and no claims if the token cannot be read; otherwise the claims of the header followed by those of the payload, and exactly the flags of the signature (set if and only if the algorithm is known and the signature does not verify) and of the claims. For every token and parameter set there is exactly one such answer. l8w8jwt_decode_raw returns the same code and flags.", "quantifier": "every token, key, parameter set and answer of the crypto library", "why_tests_cant": "a complete functional specification covers infinitely many tokens and all combinations of parameters", "anchors": ["src/decode.c:l8w8jwt_decode", "src/decode.c:l8w8jwt_decode_raw", "src/decode.c:l8w8jwt_validate_claims", "src/decode.c:l8w8jwt_verify_signature", "src/decode.c:l8w8jwt_parse_claims"]}
{"id": "C63", "title": "The result of decoding depends on the request only", "statement": "Two calls of l8w8jwt_decode for the same token, algorithm, key, expected values, flags and tolerances, at the same time, return the same code, validation result and claims, whatever memory the arguments are in and what follows them, whether terminators are counted in lengths, whatever uninitialised memory contains, and whether or not the library is built for small stacks.", "quantifier": "every pair of calls, every content of uninitialised memory and every state of the heap", "why_tests_cant": "it is a statement about pairs of executions and about memory that tests do not control", "anchors": ["src/decode.c:l8w8jwt_decode", "src/decode.c:l8w8jwt_parse_claims", "src/decode.c:l8w8jwt_verify_signature"]}
{"id": "C64", "title": "Undefined behaviour of the encoder is characterised exactly", "statement": "For valid and readable parameters and without allocation failures, l8w8jwt_encode is free of undefined behaviour if and only if the algorithm is unknown, or: where char is signed, the registered strings and the keys and values of all claims contain no byte above 127; the base64 texts of header and payload have at most INT_MAX characters; and for algorithms with PEM keys (if the random generator can be seeded) the key has fewer than 8192 bytes or ends in NUL. Under these conditions it is also free of undefined behaviour if allocations fail, except in builds for small stacks.", "quantifier": "every parameter set with header and payload below 2^62 bytes, every key and every answer of the crypto library", "why_tests_cant": "undefined behaviour can go unnoticed in tests, and its absence for all other inputs cannot be tested", "anchors": ["src/encode.c:l8w8jwt_encode", "src/encode.c:write_header_and_payload", "src/encode.c:write_signature", "src/claim.c:l8w8jwt_write_claims"]}
{"id": "C65", "title": "Everything encoding gives the caller is determined by a specification", "statement": "For valid and readable parameters, without allocation failures, and where encoding is free of undefined behaviour, l8w8jwt_encode returns exactly what a specification says: the return code; and on success, in a new block, the token of the header, the payload and their signature, followed by a NUL, and its length; on failure no block. Nothing else is left allocated. For every parameter set there is exactly one such answer.", "quantifier": "every parameter set, key and answer of the crypto library", "why_tests_cant": "a complete functional specification covers infinitely many parameter sets and all algorithms", "anchors": ["src/encode.c:l8w8jwt_encode", "src/encode.c:write_header_and_payload", "src/encode.c:write_signature"]}
{"id": "C66", "title": "The token depends on the request only", "statement": "Two calls of l8w8jwt_encode for the same algorithm, key, password, times, strings and claims return the same code and the same token, whatever memory the arguments are in and what follows them, whether lengths or terminators delimit them, whether the terminator of the key is counted, whatever uninitialised memory contains, at whatever time, and whether or not the library is built for small stacks (for signature primitives that are functions of key and message).", "quantifier": "every pair of calls and every state of the heap", "why_tests_cant": "it is a statement about pairs of executions and about memory that tests do not control", "anchors": ["src/encode.c:l8w8jwt_encode", "src/encode.c:write_header_and_payload", "src/claim.c:l8w8jwt_write_claims"]}
{"id": "C67", "title": "Lack of memory never makes a token valid", "statement": "Whatever allocations fail during l8w8jwt_decode: a failure sets all validation flags and hands out no claims; L8W8JWT_SUCCESS is returned only for tokens for which it is returned without failures; the flag of the signature is then the same, the claims are some of the token's claims in their order (all of them if the 16 slots of the claims buffer suffice), and every flag that is set without failures is set.", "quantifier": "every token, key, parameter set, answer of the crypto library and every schedule of allocation failures", "why_tests_cant": "tests would have to make every single allocation fail, for every kind of token", "anchors": ["src/decode.c:l8w8jwt_decode", "src/decode.c:l8w8jwt_parse_claims", "src/decode.c:l8w8jwt_validate_claims"]}
{"id": "C68", "title": "Clients that release each result once have no memory errors and no leaks", "statement": "In every sequence of calls of l8w8jwt_encode, l8w8jwt_decode, l8w8jwt_decode_raw, l8w8jwt_decode_raw_no_validation, the base64 functions and releases (free, l8w8jwt_free_claims with the reported count), in any order and with results of earlier calls still held: everything held can be released, no block is held twice, calls do not interfere with each other's definedness, and when everything is released the heap is as at the beginning.", "quantifier": "every finite sequence of calls with arbitrary arguments, clocks, answers of the crypto library and schedules of allocation failures", "why_tests_cant": "the histories are unbounded, and the double frees or leaks depend on which call failed where", "anchors": ["src/encode.c:l8w8jwt_encode", "src/decode.c:l8w8jwt_decode", "src/decode.c:l8w8jwt_decode_raw", "src/decode.c:l8w8jwt_decode_raw_no_validation", "src/claim.c:l8w8jwt_free_claims", "src/base64.c:l8w8jwt_base64_decode"]}
{"id": "C69", "title": "A signed token has one spelling", "statement": "Two token texts with the same header and payload that are both accepted by l8w8jwt_decode for the same HMAC key are the same text. More generally, what decoding says about a token depends on its signature text only through the octets the algorithm prescribes.", "quantifier": "every pair of tokens, key, parameter set, answer of the crypto library", "why_tests_cant": "tests cannot try all the texts that could be mistaken for the signature; deny lists and replay caches keyed by the token text depend on this", "anchors": ["src/decode.c:l8w8jwt_verify_signature", "src/decode.c:l8w8jwt_decode_segments", "src/base64.c:l8w8jwt_base64_decode"]}
{"id": "C70", "title": "Decoding does not amplify", "statement": "The names and values of the claims handed out by l8w8jwt_decode, together with two bytes for each claim, take at most three quarters of the bytes of the token; so do the segments handed out by l8w8jwt_decode_raw_no_validation.", "quantifier": "every token, key, parameter set, answer of the crypto library and schedule of allocation failures", "why_tests_cant": "a test cannot rule out that some nesting of escapes, containers and malformed JSON makes claims overlap or grow", "anchors": ["src/decode.c:l8w8jwt_parse_claims", "src/decode.c:l8w8jwt_unescape_claim", "src/decode.c:l8w8jwt_decode_segments"]}
{"id": "C71", "title": "The size of a token is bounded by what is put into it", "statement": "A token produced by l8w8jwt_encode has at most 8 characters for each byte of the claims and strings given (counting one more for each additional claim), and 5711 more.", "quantifier": "every parameter set with readable strings, every answer of the crypto library and schedule of allocation failures", "why_tests_cant": "the worst case depends on which characters are escaped and on combinations of optional members", "anchors": ["src/encode.c:l8w8jwt_encode", "src/encode.c:write_header_and_payload", "src/claim.c:l8w8jwt_write_claims", "src/claim.c:l8w8jwt_escape_claim_string"]}
{"id": "C72", "title": "Raw decoding hands out segments only if it succeeds", "statement": "l8w8jwt_decode_raw writes header, payload and signature only if decoding was successful (as documented), and then exactly the decoded segments of the token; return code and validation result are those of l8w8jwt_decode.", "quantifier": "every token, key, parameter set, choice of out arguments, answer of the crypto library and schedule of allocation failures", "why_tests_cant": "each failure leaves the function in a different state, and tests look at the out arguments of successful calls", "anchors": ["src/decode.c:l8w8jwt_decode_raw", "src/decode.c:l8w8jwt_decode_raw_no_validation", "src/decode.c:l8w8jwt_decode_segments"]}
{"id": "C73", "title": "The text of the base64 functions, executed on memory", "statement": "Executed statement by statement on a memory of objects, l8w8jwt_base64_encode and l8w8jwt_base64_decode end without undefined behaviour; they store the RFC 4648 text (with NUL) or the decoded data in one new block, its address in *out and its length in *out_length, and change no other object; on failure nothing is allocated and at most *out is changed (to NULL). Decoding the text just encoded gives the data back.", "quantifier": "every memory, data, length below 2^62 (in url mode as long as the text has at most INT_MAX characters), combination of NULL pointers and schedule of allocation failures", "why_tests_cant": "absence of stray writes, and reading of the input as it was, is about all memory contents", "anchors": ["src/base64.c:l8w8jwt_base64_encode", "src/base64.c:l8w8jwt_base64_decode"]}
{"id": "C74", "title": "The text of the util functions, executed on memory", "statement": "Executed statement by statement, l8w8jwt_hexstr2bin stores exactly the bytes and a NUL in the output buffer and their number in *output_length and changes nothing else, and changes nothing if it fails; l8w8jwt_strncmpic changes nothing and returns 0 exactly for strings that agree up to case in the first n characters, at least one of which is compared.", "quantifier": "every memory, string and length, and both signednesses of char", "why_tests_cant": "absence of stray writes and overreads is about all memory contents", "anchors": ["src/util.c:l8w8jwt_hexstr2bin", "src/util.c:l8w8jwt_strncmpic"]}
{"id": "C75", "title": "The text of the version functions, executed on memory", "statement": "l8w8jwt_get_version_number returns 234 and l8w8jwt_get_version_string writes \"2.3.4\" with its NUL to the caller's buffer, and nothing else changes.", "quantifier": "every memory and every position in a buffer with at least six bytes from there on", "why_tests_cant": "absence of stray writes is about all memory contents", "anchors": ["src/version.c:l8w8jwt_get_version_number", "src/version.c:l8w8jwt_get_version_string"]}
{"id": "C76", "title": "The text of claim.c, executed on memory", "statement": "Executed statement by statement, l8w8jwt_get_claim returns the address of the first claim whose key begins with the given characters and changes nothing; l8w8jwt_free_claims frees each string and the array exactly once and changes no other object; l8w8jwt_write_claims appends the escaped members to the builder, changes no other object and leaks nothing.", "quantifier": "every memory, array of claims, builder and schedule of allocation failures", "why_tests_cant": "absence of stray writes, double frees and overreads is about all memory contents", "anchors": ["src/claim.c:l8w8jwt_get_claim", "src/claim.c:l8w8jwt_free_claims", "src/claim.c:l8w8jwt_write_claims", "src/claim.c:l8w8jwt_escape_claim_string"]}
{"id": "C77", "title": "The text of l8w8jwt_decode, executed on memory", "statement": "Executed statement by statement (with splitting, base64, unescaping, claim parsing and validation, and the check of the signature; jsmn and the crypto library by their contracts), l8w8jwt_decode ends without undefined behaviour, returns the code and stores the validation result of the specification, stores address and number of the claims exactly if it succeeds, and changes no other object. Executing l8w8jwt_free_claims on what was stored restores the set of live blocks.", "quantifier": "every memory, token (shorter than 2^31 - 16), key, parameter set, answer of the crypto library and, for the statements about failures, every schedule of allocation failures", "why_tests_cant": "absence of stray writes, overreads, leaks and double frees is about all memory contents and all orders of allocation failures", "anchors": ["src/decode.c:l8w8jwt_decode", "src/decode.c:l8w8jwt_decode_segments", "src/decode.c:l8w8jwt_parse_claims", "src/decode.c:l8w8jwt_validate_claims", "src/decode.c:l8w8jwt_unescape_claim", "src/decode.c:l8w8jwt_validate_decoding_params"]}
{"id": "C78", "title": "The text of the raw decoding functions, executed on memory", "statement": "Executed statement by statement, l8w8jwt_decode_raw and l8w8jwt_decode_raw_no_validation end without undefined behaviour with the specified code and validation result, hand out exactly the segments before the first one that cannot be decoded in the out arguments that were given, and change no other object; l8w8jwt_decoding_params_init zeroes all members, except that the algorithm becomes -2.", "quantifier": "every memory, token (shorter than 2^31 - 16), key, parameter set, choice of out arguments and answer of the crypto library", "why_tests_cant": "absence of stray writes is about all memory contents", "anchors": ["src/decode.c:l8w8jwt_decode_raw", "src/decode.c:l8w8jwt_decode_raw_no_validation", "src/decode.c:l8w8jwt_decoding_params_init"]}
{"id": "C79", "title": "The text of l8w8jwt_encode, executed on memory", "statement": "Executed statement by statement (with writing of header, payload, signature and token; mbedTLS and Ed25519 by their contracts), l8w8jwt_encode ends without undefined behaviour, returns the code of the specification, and exactly if it succeeds stores the address of a new block with the token of the specification and a NUL, and its length; no other object is changed and nothing else stays allocated, whatever allocations fail. Executing l8w8jwt_free on what was stored restores memory and allocator. Refused parameters change nothing.", "quantifier": "every memory, parameter set with readable strings and key for which encoding is defined, answer of the crypto library and schedule of allocation failures", "why_tests_cant": "absence of stray writes, overreads, leaks and double frees is about all memory contents and all orders of allocation failures", "anchors": ["src/encode.c:l8w8jwt_encode", "src/encode.c:write_header_and_payload", "src/encode.c:write_signature", "src/encode.c:write_token", "src/encode.c:l8w8jwt_validate_encoding_params", "src/version.c:l8w8jwt_free"]}
{"id": "C80", "title": "The text of l8w8jwt_encoding_params_init, executed on memory", "statement": "l8w8jwt_encoding_params_init zeroes all members of the structure, except that the algorithm becomes -2, changes nothing else, and ignores NULL.", "quantifier": "every memory and every structure in it", "why_tests_cant": "absence of stray writes is about all memory contents", "anchors": ["src/encode.c:l8w8jwt_encoding_params_init"]}
{"id": "C81", "title": "What the text of l8w8jwt_encode writes, the text of l8w8jwt_decode reads", "statement": "If the text of l8w8jwt_encode, executed on memory, reports success, then the text of l8w8jwt_decode, executed in any later memory on this token with the same algorithm and a matching key, ends without undefined behaviour, reports success, and stores exactly the claims given to the encoder (in order, with keys, values and types) and the flags of claim validation, with the signature accepted.", "quantifier": "every memory, parameter set under the conditions of C41, time, and answer of the crypto library", "why_tests_cant": "the property relates two calls through the bytes of memory, for all claims and keys", "anchors": ["src/encode.c:l8w8jwt_encode", "src/decode.c:l8w8jwt_decode"]}
{"id": "C82", "title": "The defects, in executions of the C text", "statement": "For each defect that the model shows (a _false theorem of C18, C20, C21, C26, C28, C29, C33, C35, C40, C41, C44-C49, C60, C64, C67, C69), there is an execution of the text of l8w8jwt_encode or l8w8jwt_decode that shows it: undefined behaviour, a token that is accepted or rejected wrongly, wrong claims, a wrong token, or blocks that stay allocated.", "quantifier": "each of the listed defects", "why_tests_cant": "undefined behaviour need not show in a run of a compiled program", "anchors": ["src/encode.c:l8w8jwt_encode", "src/decode.c:l8w8jwt_decode"]}
{"id": "C83", "title": "What a caller may conclude from what the text of l8w8jwt_decode stores", "statement": "If the text of l8w8jwt_decode, executed on memory, reports success, then the flag of the signature is stored exactly if the signature in the token does not verify under the algorithm and key of the caller, and VALID is stored exactly if it verifies and the claims in memory at the address stored pass all validations the caller asked for; these claims are claims of the token. If it fails, all flags are stored.", "quantifier": "every memory, token, key, algorithm 0..13, parameter set and answer of the crypto library for which decoding is defined (C47), and every schedule of allocation failures", "why_tests_cant": "the decision depends on all bytes of token, key and parameters", "anchors": ["src/decode.c:l8w8jwt_decode", "src/decode.c:l8w8jwt_verify_signature", "src/decode.c:l8w8jwt_validate_claims"]}
{"id": "C84", "title": "The programs examples/*/encode.c", "statement": "Each of the 14 programs examples/*/encode.c, executed as text from its start, together with the text of the functions it calls: if its text can be signed with its key, it prints one message, which ends with the token whose header names the algorithm of the program and whose payload is {iat: now, exp: now + 600, ...} as the program intends, returns 0, and has released all memory. (Otherwise it should print a message and end. That is false: the variable jwt is printed and freed whether or not l8w8jwt_encode has stored anything.)", "quantifier": "every one of the 14 programs, every time after 1970 to which 600 can be added, every answer of the crypto library and every schedule of allocation failures", "why_tests_cant": "the programs are run by hand, on platforms where nothing fails; reading a variable without a value need not show in a run", "anchors": ["examples/hs256/encode.c:main", "examples/rs256/encode.c:main", "examples/eddsa/encode.c:main", "src/encode.c:l8w8jwt_encode"]}
{"id": "C85", "title": "The programs examples/*/decode.c", "statement": "Each program examples/*/decode.c (rs256: its text up to the first message), executed as text from its start, together with the text of the functions it calls: it prints the return code of l8w8jwt_decode and the validation flags; the code is 0 and the flags are those of the claims exp and iat of its token (one minute of tolerance) exactly if the signature of the token verifies under the algorithm and key of the program; it returns 0 and has released all memory. (False for hs256: the program sets the algorithm to -1, so that no signature is checked, and never releases the claims. False for rs512: it asks for nbf, which its token does not have.)", "quantifier": "every program text, every token with header and payload as the encode programs make them, any text of a signature and any key, every time, every answer of the crypto library and every schedule of allocation failures", "why_tests_cant": "the programs are run by hand, with the recorded token and key; a missing check does not show in a run with a right signature", "anchors": ["examples/hs256/decode.c:main", "examples/hs384/decode.c:main", "examples/rs512/decode.c:main", "examples/eddsa/decode.c:main", "src/decode.c:l8w8jwt_decode"]}
{"id": "C86", "title": "What examples/*/encode.c prints is accepted by examples/*/decode.c", "statement": "If a program examples/*/encode.c can sign with its key, then the token it prints, put into the text of the decode programs with the same algorithm and a matching key, makes these print code 0 and result 0, from one minute before to eleven minutes after the time of the first run, and another result at all other times.", "quantifier": "every one of the 14 encode programs, all times, matching keys and answers of the crypto library, no allocation failures", "why_tests_cant": "two runs of two programs at all pairs of times", "anchors": ["examples/hs256/encode.c:main", "examples/eddsa/encode.c:main", "examples/hs384/decode.c:main", "examples/eddsa/decode.c:main"]}
{"id": "C87", "title": "The program examples/eddsa/keygen.c", "statement": "The program, executed as text from its start, prints in hexadecimal the public and the private key that the library makes of a seed, and ends. Without arguments the seed is what ed25519_create_seed has drawn. With arguments it should be no easier to guess than that. (False: the first 16 bytes are each multiplied with four bytes of a hash of the arguments, modulo 256; no random numbers are lost exactly if all 64 bytes of the hash are odd. False also without arguments: if ed25519_create_seed fails, the key of 32 zero bytes is printed.)", "quantifier": "all lists of arguments, all random numbers including none, every hash function and key derivation", "why_tests_cant": "keys printed look random whatever the seed; that two random numbers give one key does not show in runs", "anchors": ["examples/eddsa/keygen.c:main"]}
{"id": "C88", "title": "The program examples/rs256/decode.c", "statement": "The program, executed as text from its start, together with the text of l8w8jwt_decode, l8w8jwt_decode_raw_no_validation and l8w8jwt_decode_raw: it prints the return code and the flags of the first and the last function, which agree, and the return code of the second, and twice the header and the payload as the base64url text of the token says them, up to the first NUL, whether or not the signature is right; it returns 0 and has released all memory. For its own token and those of the encode programs the two texts are exactly the ones that were encoded. (It should do so, or print a message, for all tokens. That is false: if header or payload cannot be decoded, or memory is short, it hands NULL to printf for %s.)", "quantifier": "every token in three parts and every key for which decoding is defined (C61), every time and every answer of the crypto library; the false cases: every token of which the header or the payload is not handed out", "why_tests_cant": "the program is run by hand with the recorded token; printf of NULL prints (null) on many platforms", "anchors": ["examples/rs256/decode.c:main", "src/decode.c:l8w8jwt_decode_raw", "src/decode.c:l8w8jwt_decode_raw_no_validation"]}
{"id": "C89", "title": "The default build, without EdDSA", "statement": "L8W8JWT_ENABLE_EDDSA is 0 unless defined otherwise. The text of src/ as preprocessed for the default build does the same as the text preprocessed with EdDSA for every other algorithm: same return code, same stored values, same claims or token. With algorithm EdDSA, l8w8jwt_decode returns L8W8JWT_UNSUPPORTED_ALG and writes nothing, and l8w8jwt_encode hands out nothing and returns the same code. The programs examples/eddsa/encode.c and decode.c say so. (False: they do not look at the return code. encode.c reads an uninitialised variable or gives NULL to printf; decode.c reads an uninitialised variable, on every run.)", "quantifier": "all parameters, keys and tokens for which decoding or encoding is defined, every answer of the crypto library; every schedule of allocation failures (encoding, refusals, decode.c of the examples)", "why_tests_cant": "two different programs would have to be compared on all inputs; reading an uninitialised variable prints some number", "anchors": ["src/decode.c:l8w8jwt_validate_decoding_params", "src/decode.c:l8w8jwt_verify_signature", "src/encode.c:write_signature", "examples/eddsa/decode.c:main", "examples/eddsa/encode.c:main"]}
{"id": "C90", "title": "Builds for small stacks", "statement": "With L8W8JWT_SMALL_STACK the text of src/ does the same as without: l8w8jwt_encode returns the same code and hands out the same token in a block of its own, with no other block left; l8w8jwt_decode returns the same code, stores the same validation result and the same claims; l8w8jwt_decode_raw hands out the same texts. Nothing else has changed, no execution is undefined, and an allocation that fails is reported as L8W8JWT_OUT_OF_MEM. (The last is false: if the buffer for the key cannot be allocated, both functions clear 8192 bytes through a null pointer.)", "quantifier": "all parameters, keys and tokens for which decoding or encoding is defined, with EdDSA or without, every answer of the crypto library, no failing allocation; the false case: a failing allocation of the buffer for the key", "why_tests_cant": "the tests are built without L8W8JWT_SMALL_STACK, and no test makes an allocation fail; two programs would have to be compared on all inputs", "anchors": ["src/encode.c:write_signature", "src/decode.c:l8w8jwt_verify_signature"]}
{"id": "C91", "title": "Refused calls of the decoding functions", "statement": "The texts of l8w8jwt_decode, l8w8jwt_decode_raw and l8w8jwt_decode_raw_no_validation return L8W8JWT_NULL_ARG if the parameters, the token, the key or a necessary out argument is NULL (an out argument for claims or a segment needs one for its length; the first two need one for the result, the third one for some segment); L8W8JWT_INVALID_ARG if the token or the key has length 0 or the key more than 8192 bytes; L8W8JWT_UNSUPPORTED_ALG for EdDSA in a build without it; with this precedence, except that l8w8jwt_decode looks at the out argument for the result last. Nothing at all has changed then: no object is written, not even the out arguments, and nothing is allocated.", "quantifier": "all parameters and combinations of NULL arguments, all builds, all schedules of allocation failures", "why_tests_cant": "that nothing is written or allocated is not observed by tests; there are hundreds of combinations of NULL arguments", "anchors": ["src/decode.c:l8w8jwt_validate_decoding_params", "src/decode.c:l8w8jwt_decode", "src/decode.c:l8w8jwt_decode_raw", "src/decode.c:l8w8jwt_decode_raw_no_validation"]}
