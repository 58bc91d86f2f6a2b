{"claims": [
  {"property": "C01", "status": "proved", "theorems": ["L8w8jwt.C01_base64_roundtrip"], "note": ""},
  {"property": "C02", "status": "proved", "theorems": ["L8w8jwt.C02_base64_rfc4648", "L8w8jwt.C02_base64_defined", "L8w8jwt.C02_base64_url_overflow"], "note": "Definedness in url mode holds for texts of up to INT_MAX characters; beyond that the code is undefined (int line_length overflows), proved as C02_base64_url_overflow."},
  {"property": "C03", "status": "proved", "theorems": ["L8w8jwt.C03_base64_alloc_bound", "L8w8jwt.C03_base64_size", "L8w8jwt.C03_base64_overflow_iff"], "note": ""},
  {"property": "C04", "status": "proved", "theorems": ["L8w8jwt.C04_base64_decode_bounds", "L8w8jwt.C04_base64_decode_reads_prefix"], "note": ""},
  {"property": "C05", "status": "proved", "theorems": ["L8w8jwt.C05_base64_decode_exact", "L8w8jwt.C05_base64_junk_ignored", "L8w8jwt.C05_reject_count", "L8w8jwt.C05_reject_iff"], "note": ""},
  {"property": "C06", "status": "proved", "theorems": ["L8w8jwt.C06_base64_nonempty"], "note": ""},
  {"property": "C07", "status": "partial", "theorems": ["L8w8jwt.C07_base64_nul_false", "L8w8jwt.C07_base64_nul_partial", "L8w8jwt.C07_base64_nul_encoded"], "note": "The statement is false of the code (witness AAB=). Proved: its negation, the exact condition under which it holds, and that it holds for every text the encoder writes."},
  {"property": "C08", "status": "proved", "theorems": ["L8w8jwt.C08_hex_correct", "L8w8jwt.C08_hex_bounded", "L8w8jwt.C08_hex_odd", "L8w8jwt.C08_hex_too_small", "L8w8jwt.C08_hex_bad_args"], "note": ""},
  {"property": "C09", "status": "partial", "theorems": ["L8w8jwt.C09_hex_rejects_false", "L8w8jwt.C09_hex_rejects_partial", "L8w8jwt.C09_hex_exact"], "note": "The statement is false of the code: non-hexadecimal characters are accepted. Proved: the negation, what is rejected, and what is written for any characters."},
  {"property": "C10", "status": "partial", "theorems": ["L8w8jwt.C10_strncmpic_false", "L8w8jwt.C10_strncmpic_partial", "L8w8jwt.C10_strncmpic_defined"], "note": "The statement is false in corner cases (length 0, both strings ended). Proved: the negation and the exact behaviour otherwise."},
  {"property": "C11", "status": "proved", "theorems": ["L8w8jwt.C11_no_breakout", "L8w8jwt.C11_key_no_breakout"], "note": "For runs in which no buffer growth fails (see C26 for those)."},
  {"property": "C12", "status": "partial", "theorems": ["L8w8jwt.C12_escape_roundtrip_false", "L8w8jwt.C12_escape_roundtrip_partial"], "note": "False for characters written as \\\\u00XX; the partial theorem is an exact characterisation (iff)."},
  {"property": "C13", "status": "partial", "theorems": ["L8w8jwt.C13_write_claims_defined_false", "L8w8jwt.C13_write_claims_defined_partial"], "note": "False for signed char and bytes from 0x80 on (proved for every such string value); defined otherwise, under every schedule of allocation failures."},
  {"property": "C14", "status": "proved", "theorems": ["L8w8jwt.C14_write_claims_exact", "L8w8jwt.C14_write_claims_null", "L8w8jwt.C14_write_claims_zero"], "note": "For runs in which no buffer growth fails (see C26 for those)."},
  {"property": "C15", "status": "partial", "theorems": ["L8w8jwt.C15_get_claim_false", "L8w8jwt.C15_get_claim_partial", "L8w8jwt.C15_get_claim_null"], "note": "False: prefix match. The partial theorem gives the exact result and the condition under which it is the documented one."},
  {"property": "C16", "status": "proved", "theorems": ["L8w8jwt.C16_validate", "L8w8jwt.C16_encode_invalid"], "note": ""},
  {"property": "C17", "status": "proved", "theorems": ["L8w8jwt.C17_token_shape", "L8w8jwt.isToken_unique", "L8w8jwt.encode_token"], "note": ""},
  {"property": "C18", "status": "partial", "theorems": ["L8w8jwt.C18_names_distinct", "L8w8jwt.C18_header_names_alg", "L8w8jwt.C18_header_exact_partial", "L8w8jwt.C18_headerJson_valid", "L8w8jwt.C18_header_false"], "note": "False for header claims arrays with count > 0 that write nothing (trailing comma). The partial theorem gives the exact header text and when it is valid JSON."},
  {"property": "C19", "status": "proved", "theorems": ["L8w8jwt.C19_known_alg", "L8w8jwt.C19_unknown_alg"], "note": ""},
  {"property": "C20", "status": "partial", "theorems": ["L8w8jwt.C20_payload_partial", "L8w8jwt.C20_payloadJson_valid", "L8w8jwt.C20_sepOk_of_explicit", "L8w8jwt.C20_payload_false"], "note": "False when claim lengths are left 0 (comma logic tests the length fields) or all keys are NULL. Partial: well-formed and exact under the separator condition SepOk."},
  {"property": "C21", "status": "partial", "theorems": ["L8w8jwt.C21_intText", "L8w8jwt.C21_times_partial", "L8w8jwt.C21_times_false"], "note": "False for negative times (printed as unsigned)."},
  {"property": "C22", "status": "partial", "theorems": ["L8w8jwt.C22_signature_partial", "L8w8jwt.emits_signs"], "note": "For every algorithm except RSA-PSS with a modulus whose bit length is not a multiple of 8 (see C51), where it is false."},
  {"property": "C23", "status": "proved", "theorems": ["L8w8jwt.C23_key_suits", "L8w8jwt.C23_requirements"], "note": ""},
  {"property": "C24", "status": "proved", "theorems": ["L8w8jwt.C24_failure_no_output"], "note": ""},
  {"property": "C25", "status": "proved", "theorems": ["L8w8jwt.C25_no_leak"], "note": ""},
  {"property": "C48", "status": "partial", "theorems": ["L8w8jwt.C48_encode_key_partial", "L8w8jwt.C48_encode_key_false", "L8w8jwt.C48_decode_key_partial", "L8w8jwt.C48_decode_key_false"], "note": "False for keys of 8192 bytes without NUL terminator (encoder: PEM keys; decoder: all algorithms), proved for every such key. Proved in bounds for all other accepted keys."},
  {"property": "C47", "status": "partial", "theorems": ["L8w8jwt.C47_decode_defined_partial", "L8w8jwt.C47_short_hmac_false", "L8w8jwt.C47_wrong_key_false", "L8w8jwt.C47_typ_false"], "note": "False: short HMAC signatures are over-read, wrong key types dereference NULL (both proved for every such token), non-ASCII typ reaches tolower. Defined under the conditions of Tame."},
  {"property": "C49", "status": "partial", "theorems": ["L8w8jwt.C49_no_leak_partial", "L8w8jwt.C49_raw_no_leak_partial", "L8w8jwt.C49_raw_nv_no_leak", "L8w8jwt.C49_free_claims_partial", "L8w8jwt.C49_leak_only", "L8w8jwt.C49_leak_header_false", "L8w8jwt.C49_leak_payload_false", "L8w8jwt.C49_leak_false", "L8w8jwt.C49_grow_leak_false"], "note": "False for headers/payloads with more than 64 items and unmatched brackets (every such token leaks exactly one block, no allocation failure needed) and for more than 16 claims if growing the claims buffer fails. Proved for all other runs, with any failures of malloc."},
  {"property": "C50", "status": "proved", "theorems": ["L8w8jwt.C50_ecdsa_width", "L8w8jwt.C50_widths", "L8w8jwt.C50_be_value", "L8w8jwt.C50_recover", "L8w8jwt.C50_decoder"], "note": ""},
  {"property": "C51", "status": "partial", "theorems": ["L8w8jwt.C51_pss_partial", "L8w8jwt.C51_pss_false"], "note": "False when the modulus bit length is not a multiple of 8."},
  {"property": "C52", "status": "proved", "theorems": ["L8w8jwt.C52_encode_complete"], "note": ""},
  {"property": "C53", "status": "partial", "theorems": ["L8w8jwt.C53_encode_defined_partial", "L8w8jwt.C53_small_stack_false", "L8w8jwt.C48_encode_key_false"], "note": "False in SMALL_STACK builds under allocation failure, for 8192-byte PEM keys, and for signed char with string bytes from 0x80 on; proved outside those cases."},
  {"property": "C26", "status": "partial", "theorems": ["L8w8jwt.C26_intact_partial", "L8w8jwt.C26_groups_partial", "L8w8jwt.C26_length_partial", "L8w8jwt.C26_intact_false", "L8w8jwt.C26_payload_cut_false", "L8w8jwt.C26_claims_dropped_false"], "note": "False under allocation failures: truncated tokens or tokens without the registered claims are reported as success. Proved: complete if nothing fails, and also if buffers cannot grow but header and payload have at most 256 bytes and the token at most 1024; what can be lost otherwise."},
  {"property": "C27", "status": "proved", "theorems": ["L8w8jwt.C27_validate", "L8w8jwt.C27_decode_invalid", "L8w8jwt.C27_null_args"], "note": ""},
  {"property": "C28", "status": "partial", "theorems": ["L8w8jwt.C28_verified_partial", "L8w8jwt.C28_raw_verified_partial", "L8w8jwt.C28_verified_conv", "L8w8jwt.C28_verified_false", "L8w8jwt.C28_unknown_alg_accepts"], "note": "False for alg outside 0..13 (including the value set by l8w8jwt_decoding_params_init): such tokens are accepted without verification. Proved for every alg in 0..13, with converse."},
  {"property": "C29", "status": "partial", "theorems": ["L8w8jwt.C29_hmac_partial", "L8w8jwt.C29_hmac_exact_length", "L8w8jwt.C29_hmac_false"], "note": "False: signatures longer than the MAC are accepted if they start with it. Proved: acceptance exactly if the signature begins with the MAC; equality for signatures of the right length."},
  {"property": "C30", "status": "proved", "theorems": ["L8w8jwt.C30_alg_from_caller"], "note": ""},
  {"property": "C31", "status": "proved", "theorems": ["L8w8jwt.C31_no_dot", "L8w8jwt.C31_missing_signature", "L8w8jwt.C31_bad_segment", "L8w8jwt.C31_empty_signature"], "note": ""},
  {"property": "C32", "status": "proved", "theorems": ["L8w8jwt.C32_fail_closed", "L8w8jwt.C32_raw_fail_closed"], "note": ""},
  {"property": "C36", "status": "proved", "theorems": ["L8w8jwt.C36_same_verdict", "L8w8jwt.C36_same_definedness", "L8w8jwt.C36_raw_bytes", "L8w8jwt.C36_raw_errors"], "note": ""},
  {"property": "C37", "status": "proved", "theorems": ["L8w8jwt.C37_defined", "L8w8jwt.C37_segments", "L8w8jwt.C37_success_iff", "L8w8jwt.C37_encoded"], "note": ""},
  {"property": "C38", "status": "proved", "theorems": ["L8w8jwt.C38_length_with_nul"], "note": "For non-empty tokens; the empty token with length 0 is an invalid argument."},
  {"property": "C39", "status": "proved", "theorems": ["L8w8jwt.C39_encode_nul", "L8w8jwt.C39_hmac_key", "L8w8jwt.C39_decode_nul", "L8w8jwt.C39_same_key"], "note": ""},
  {"property": "C33", "status": "partial", "theorems": ["L8w8jwt.C33_flags_partial", "L8w8jwt.C33_flag_meaning", "L8w8jwt.C33_prefix_false", "L8w8jwt.C33_typ_false", "L8w8jwt.C42_top_level"], "note": "False: claims are found by prefix of the name, and typ is compared by prefix. Proved: the exact flags, in terms of the first claim whose name starts so, and that they are the documented ones if no claim shadows another."},
  {"property": "C34", "status": "proved", "theorems": ["L8w8jwt.C34_later", "L8w8jwt.C34_tolerance", "L8w8jwt.C34_decode_later", "L8w8jwt.C34_decode_tolerance"], "note": ""},
  {"property": "C35", "status": "partial", "theorems": ["L8w8jwt.C35_integer_partial", "L8w8jwt.C35_integer_value", "L8w8jwt.C35_fraction_partial", "L8w8jwt.C35_exponent", "L8w8jwt.C35_value_false"], "note": "False for numbers in scientific notation. Proved: exact for integers, floor-like for decimals, only the mantissa for exponents."},
  {"property": "C42", "status": "proved", "theorems": ["L8w8jwt.C42_top_level", "L8w8jwt.C42_claims_exact"], "note": "For headers and payloads that are JSON objects, and runs in which growing the claims buffer does not fail or is not necessary (16 claims)."},
  {"property": "C44", "status": "partial", "theorems": ["L8w8jwt.C44_parse_partial", "L8w8jwt.C44_defined_iff", "L8w8jwt.C44_few_partial", "L8w8jwt.C44_overread_false", "L8w8jwt.C44_slack_false", "L8w8jwt.C44_decode_false", "L8w8jwt.C44_witness_false"], "note": "False: exactly the texts of 64 items or more that end with an array, an object or half a claim (and those of 63 items that end with an array or object, depending on an uninitialised slot) make the parser read behind the token array, for whole tokens too. Proved: for all other texts, JSON or not, parsing is defined and does not depend on uninitialised slots (C44_defined_iff is an equivalence)."},
  {"property": "C45", "status": "partial", "theorems": ["L8w8jwt.C45_decode_partial", "L8w8jwt.C45_value_partial", "L8w8jwt.C45_untyped_partial", "L8w8jwt.C45_false"], "note": "False: text after the object, unbalanced brackets and missing separators are accepted (what exactly is accepted: C57). Proved: tokens with JSON values other than objects, or with objects with values of no known type, are rejected; claims are never invented."},
  {"property": "C46", "status": "partial", "theorems": ["L8w8jwt.C42_top_level", "L8w8jwt.C45_untyped_partial", "L8w8jwt.C46_false"], "note": "False for primitives that only start with true. Proved for every JSON object."},
  {"property": "C40", "status": "partial", "theorems": ["L8w8jwt.C40_signature_partial", "L8w8jwt.C40_pss_false", "L8w8jwt.C40_hmac_key_false"], "note": "False for RSA-PSS keys whose bit length is not a multiple of 8, and for HMAC keys that contain the first line of a PEM certificate. Proved for every other matching key."},
  {"property": "C41", "status": "partial", "theorems": ["L8w8jwt.C41_round_trip_partial", "L8w8jwt.C41_false"], "note": "False for strings with control characters, for implicit string lengths with additional claims, negative times, and for objects of 63 tokens or more that end with an array or object. Proved under conditions that exclude just these."},
  {"property": "C43", "status": "proved", "theorems": ["L8w8jwt.C43_no_forgery"], "note": "For tokens whose header and payload are well-formed JSON (separator present, times not negative, values of non-string claims valid JSON)."},
  {"property": "C54", "status": "partial", "theorems": ["L8w8jwt.C54_validated_partial", "L8w8jwt.C54_false"], "note": "False if a caller's claim has a name that starts like a registered one. Proved otherwise, under the conditions of C41."},
  {"property": "C55", "status": "proved", "theorems": ["L8w8jwt.C55_sign_tidy", "L8w8jwt.C55_sign_same_run", "L8w8jwt.C55_verify_tidy", "L8w8jwt.C55_verify_same_run", "L8w8jwt.C55_oom_tidy"], "note": ""},
  {"property": "C56", "status": "proved", "theorems": ["L8w8jwt.C56_wiped", "L8w8jwt.C56_wiped_out", "L8w8jwt.C56_released"], "note": ""},
  {"property": "C57", "status": "proved", "theorems": ["L8w8jwt.C57_total_unique", "L8w8jwt.C57_decides", "L8w8jwt.C57_accepted", "L8w8jwt.C57_rejected", "L8w8jwt.C57_json", "L8w8jwt.C44_parse_partial"], "note": "C57_decides: for runs without undefined behaviour (Tame) and without allocation failures; C57_accepted, C57_rejected: for every run, whatever fails."},
  {"property": "C58", "status": "proved", "theorems": ["L8w8jwt.C58_encode", "L8w8jwt.C58_decode_code", "L8w8jwt.C58_decodeRaw_code", "L8w8jwt.C58_decode", "L8w8jwt.encCode_unique", "L8w8jwt.encCode_exists", "L8w8jwt.decCode_unique", "L8w8jwt.decCode_exists"], "note": "Decoder: for every run that returns; that it returns is shown under the conditions of C47 (Tame). Encoder: PEM keys of 8192 bytes without terminator excluded (C48)."},
  {"property": "C59", "status": "proved", "theorems": ["L8w8jwt.C59_base64_encode_code", "L8w8jwt.C59_base64_decode_code"], "note": "Encoder in URL mode: for outputs of at most INT_MAX characters (C02: beyond them the line counter overflows)."},
  {"property": "C60", "status": "partial", "theorems": ["L8w8jwt.C60_encode_partial", "L8w8jwt.C60_decode_partial", "L8w8jwt.C60_decodeRaw_partial", "L8w8jwt.C60_encode_false", "L8w8jwt.C60_decode_false"], "note": "False: a failing allocation of the signature text is reported as L8W8JWT_BASE64_FAILURE, one of a claim as L8W8JWT_DECODE_FAILED_INVALID_TOKEN_FORMAT, and failures to grow buffers or to allocate escape buffers are ignored (C26, C49). Proved: no other code than these is caused by a failing allocation; the decoder reports success only for tokens that it accepts without failures."},
  {"property": "C61", "status": "proved", "theorems": ["L8w8jwt.C61_decode_defined", "L8w8jwt.C61_decodeRaw_defined", "L8w8jwt.C61_verify_defined"], "note": ""},
  {"property": "C62", "status": "proved", "theorems": ["L8w8jwt.C62_decode", "L8w8jwt.C62_decode_flags", "L8w8jwt.C62_decodeRaw", "L8w8jwt.answer_unique", "L8w8jwt.answer_exists"], "note": "Where decoding is defined: see C61."},
  {"property": "C63", "status": "proved", "theorems": ["L8w8jwt.C63_same_result"], "note": "For calls that return (C61 says when), and without allocation failures."},
  {"property": "C64", "status": "proved", "theorems": ["L8w8jwt.C64_encode_defined", "L8w8jwt.C64_encode_defined_oom"], "note": ""},
  {"property": "C65", "status": "proved", "theorems": ["L8w8jwt.C65_encode", "L8w8jwt.encAnswer_unique", "L8w8jwt.encAnswer_exists"], "note": "Where encoding is defined: see C64. Header and payload are specified as written, including the known deviations (C20, C21)."},
  {"property": "C66", "status": "proved", "theorems": ["L8w8jwt.C66_encode_same"], "note": "Without allocation failures. With the same presence of additional claims counts, and of non-zero lengths if there are payload claims (they decide about commas: C20)."},
  {"property": "C67", "status": "partial", "theorems": ["L8w8jwt.C67_decode", "L8w8jwt.C67_flags_partial", "L8w8jwt.C67_flags_only_partial", "L8w8jwt.C67_flag_lost_false"], "note": "False only for tokens with more than 16 claims of which two start with the same registered name: if the buffer cannot grow for the first but can for the second, the second is validated. Proved: everything else, and that no flag is lost for all other tokens."},
  {"property": "C68", "status": "partial", "theorems": ["L8w8jwt.C68_held", "L8w8jwt.C68_balance_partial", "L8w8jwt.C68_release_all", "L8w8jwt.C68_defined_partial", "L8w8jwt.C68_exhaust_false"], "note": "False: every decoding of a token with a leaky header (C49) loses a block, so that a sender of tokens can make a client lose any number of blocks, without knowing the key. Proved: everything held can always be released, whatever happened before; exactly what is held is live if no token was leaky (and no more than 16 claims met a failing growth); histories of calls with admissible arguments are defined."},
  {"property": "C69", "status": "partial", "theorems": ["L8w8jwt.C69_respelt", "L8w8jwt.C69_one_spelling_false", "L8w8jwt.C69_lengthened", "L8w8jwt.C69_ecdsa_zeros", "L8w8jwt.C69_ecdsa_odd", "L8w8jwt.C69_hmac_octets", "L8w8jwt.C69_hmac_partial"], "note": "False for every token with a signature: characters outside of the base64url alphabet in the signature are ignored, octets behind those that are looked at are ignored (HMAC, PSS, EdDSA), and ECDSA numbers may have leading zeros and a further octet. Proved: exactly that these do not change any result, and that two accepted tokens with HMAC signatures in the prescribed form are the same text if header and payload are."},
  {"property": "C70", "status": "proved", "theorems": ["L8w8jwt.C70_decode", "L8w8jwt.C70_raw"], "note": ""},
  {"property": "C71", "status": "proved", "theorems": ["L8w8jwt.C71_encode"], "note": "For strings whose characters are ASCII where char is signed (otherwise encoding is undefined: C64)."},
  {"property": "C72", "status": "partial", "theorems": ["L8w8jwt.C72_raw_answer", "L8w8jwt.C72_raw_nv_answer", "L8w8jwt.C72_raw_lowmem_partial", "L8w8jwt.C72_only_success_false", "L8w8jwt.C72_handed_out_false"], "note": "False for every token whose header and payload can be decoded: they are handed out whatever the return code, in blocks that a caller who believes the documentation does not release. Proved: return code, validation result and the segments handed out, exactly, as functions of token, key and expected values; and that nothing else is handed out when memory is short."},
  {"property": "C73", "status": "proved", "theorems": ["L8w8jwt.C.C73_base64_encode_text", "L8w8jwt.C.C73_base64_decode_text", "L8w8jwt.C.C73_base64_roundtrip_text", "L8w8jwt.C.C73_base64_encode_code_text", "L8w8jwt.C.C73_base64_decode_code_text", "L8w8jwt.C.base64_encode_text", "L8w8jwt.C.base64_decode_text"], "note": ""},
  {"property": "C74", "status": "proved", "theorems": ["L8w8jwt.C.C74_hexstr2bin_text", "L8w8jwt.C.C74_strncmpic_text", "L8w8jwt.C.hexstr2bin_text", "L8w8jwt.C.strncmpic_text"], "note": "strncmpic: defined where C10 says."},
  {"property": "C75", "status": "proved", "theorems": ["L8w8jwt.C.C75_version_text", "L8w8jwt.C.version_number_text", "L8w8jwt.C.version_string_text"], "note": ""},
  {"property": "C76", "status": "partial", "theorems": ["L8w8jwt.C.C76_get_claim_text", "L8w8jwt.C.C76_get_claim_null_text", "L8w8jwt.C.C76_free_claims_text", "L8w8jwt.C.C76_free_claims_null_text", "L8w8jwt.C.C76_write_claims_text", "L8w8jwt.C.C76_write_claims_null_text", "L8w8jwt.C.C76_write_claims_zero_text", "L8w8jwt.C.C76_signed_char_text", "L8w8jwt.C.get_claim_text", "L8w8jwt.C.free_claims_text", "L8w8jwt.C.write_claims_text"], "note": "Writing claims is undefined for bytes from 0x80 on where char is signed (C76_signed_char_text, C13); proved for all others. The statement about the appended text assumes that the builder can grow; write_claims_text covers failures of growing."},
  {"property": "C77", "status": "proved", "theorems": ["L8w8jwt.C.C77_decode_text", "L8w8jwt.C.C77_decode_lowmem_text", "L8w8jwt.C.C77_decode_free_text", "L8w8jwt.C.decode_text", "L8w8jwt.C.wp_verify_signature"], "note": "Where decoding is defined: see C47, C61. For builds with or without EdDSA and L8W8JWT_SMALL_STACK. Balance of blocks: for tokens that are not leaky (C49)."},
  {"property": "C78", "status": "proved", "theorems": ["L8w8jwt.C.C78_raw_text", "L8w8jwt.C.C78_raw_nv_text", "L8w8jwt.C.C78_params_init_text", "L8w8jwt.C.decode_raw_text", "L8w8jwt.C.decode_raw_nv_text"], "note": "Where decoding is defined: see C47, C61. For builds with or without EdDSA and L8W8JWT_SMALL_STACK. That segments are handed out by failing calls contradicts the documentation (C72)."},
  {"property": "C79", "status": "proved", "theorems": ["L8w8jwt.C.C79_encode_text", "L8w8jwt.C.C79_encode_lowmem_text", "L8w8jwt.C.C79_encode_free_text", "L8w8jwt.C.C79_refused_text", "L8w8jwt.C.encode_text", "L8w8jwt.C.encode_text_call"], "note": "Where encoding is defined: see C64. For builds with or without EdDSA and L8W8JWT_SMALL_STACK; failing allocations only without the latter (C90)."},
  {"property": "C80", "status": "proved", "theorems": ["L8w8jwt.C.C80_params_init_text"], "note": ""},
  {"property": "C81", "status": "proved", "theorems": ["L8w8jwt.C.C81_round_trip_text"], "note": "Under the conditions of C41 (without them it is false: C41_false, C40_pss_false)."},
  {"property": "C82", "status": "proved", "theorems": ["L8w8jwt.C.C82_unverified_text", "L8w8jwt.C.C82_spellings_text", "L8w8jwt.C.C82_short_mac_text", "L8w8jwt.C.C82_wrong_key_text", "L8w8jwt.C.C82_typ_text", "L8w8jwt.C.C82_key_text", "L8w8jwt.C.C82_leak_text", "L8w8jwt.C.C82_slots_text", "L8w8jwt.C.C82_json_text", "L8w8jwt.C.C82_boolean_text", "L8w8jwt.C.C82_names_text", "L8w8jwt.C.C82_times_text", "L8w8jwt.C.C82_lowmem_text", "L8w8jwt.C.C82_trailing_comma_text", "L8w8jwt.C.C82_missing_comma_text", "L8w8jwt.C.C82_negative_time_text", "L8w8jwt.C.C82_incomplete_text", "L8w8jwt.C.C82_secret_text", "L8w8jwt.C.C82_high_byte_text", "L8w8jwt.C.C82_pss_text", "L8w8jwt.C.C82_hmac_key_text", "L8w8jwt.C.C82_control_text"], "note": "Existential: concrete executions. What holds instead is in the theorems named after the properties that fail."},
  {"property": "C83", "status": "partial", "theorems": ["L8w8jwt.C.C83_valid_text", "L8w8jwt.C.C83_hmac_text"], "note": "Algorithms 0..13; for others it is false (C82_unverified_text, C28_unknown_alg_accepts). Where decoding is defined: see C47, C61. Claims are found by prefix of their names (C33)."},
  {"property": "C84", "status": "partial", "theorems": ["L8w8jwt.C.C84_encode_partial", "L8w8jwt.C.C84_encode_lowmem_partial", "L8w8jwt.C.C84_encode_false"], "note": "False: no program looks at the return code before it uses jwt, so that each reads a variable without a value if the first allocation fails. Proved: what is printed in case of success, that the only other end is the use of that variable, and that memory is released. For builds with or without EdDSA and L8W8JWT_SMALL_STACK; failing allocations only without the latter (C90)."},
  {"property": "C85", "status": "partial", "theorems": ["L8w8jwt.C.C85_decode", "L8w8jwt.C.C85_token", "L8w8jwt.C.C85_programs", "L8w8jwt.C.C85_expired", "L8w8jwt.C.C85_nbf_false", "L8w8jwt.C.C85_unverified_false", "L8w8jwt.C.C85_hs256_false"], "note": "False for hs256 (no signature is checked, claims are not released) and rs512 (nbf). Proved for the 12 programs other than hs256 and rs256; for hs256 what it does instead. For keys of the kind of the algorithm (C47). For rs256 see C88. For builds with or without EdDSA and L8W8JWT_SMALL_STACK; failing allocations only without the latter (C90)."},
  {"property": "C86", "status": "partial", "theorems": ["L8w8jwt.C.C86_programs_partial", "L8w8jwt.C.exFlags_zero", "L8w8jwt.C.exFlags_ne"], "note": "Not for RSA-PSS keys whose length is not a multiple of 8 bits, where it is false (C40_pss_false)."},
  {"property": "C87", "status": "partial", "theorems": ["L8w8jwt.C.C87_keygen", "L8w8jwt.C.C87_arguments_false", "L8w8jwt.C.C87_byte_false", "L8w8jwt.C.C87_no_random_false"], "note": "Proved: what is printed, for all arguments and random numbers. False: that arguments do no harm, and that a key is made only of random numbers."},
  {"property": "C88", "status": "partial", "theorems": ["L8w8jwt.C.C88_raw", "L8w8jwt.C.C88_token", "L8w8jwt.C.C88_program", "L8w8jwt.C.C88_undecodable_false", "L8w8jwt.C.C88_lowmem_false"], "note": "Proved for tokens of which header and payload can be decoded; false for all others, and without memory, where NULL is given to %s. Memory is released unless the token is one of C49_leak_only. Not for tokens in two parts under the algorithm -1, which the program does not use. For builds with or without EdDSA and L8W8JWT_SMALL_STACK."},
  {"property": "C89", "status": "partial", "theorems": ["L8w8jwt.C.C89_decode_same_text", "L8w8jwt.C.C89_raw_same_text", "L8w8jwt.C.C89_encode_same_text", "L8w8jwt.C.C89_decode_refused_text", "L8w8jwt.C.C89_encode_refused_text", "L8w8jwt.C.C89_encode_program_false", "L8w8jwt.C.C89_decode_program_false", "L8w8jwt.C.units_same"], "note": "Proved: the two builds agree for all other algorithms, and EdDSA is refused. False: that the programs of examples/eddsa report this. For builds with or without L8W8JWT_SMALL_STACK (failing allocations: only without)."},
  {"property": "C90", "status": "partial", "theorems": ["L8w8jwt.C.C90_encode_same_text", "L8w8jwt.C.C90_decode_same_text", "L8w8jwt.C.C90_raw_same_text", "L8w8jwt.C.C90_lowmem_false", "L8w8jwt.C.units_small", "L8w8jwt.C.units_small0"], "note": "Proved where no allocation fails. False otherwise: if the buffer for the key cannot be allocated, mbedtls_platform_zeroize is given NULL and 8192."},
  {"property": "C91", "status": "proved", "theorems": ["L8w8jwt.C.C91_decode_text", "L8w8jwt.C.C91_raw_text", "L8w8jwt.C.C91_raw_nv_text", "L8w8jwt.C.C91_null_text", "L8w8jwt.validate_refuses"], "note": ""}
]}
