# Formal model of l8w8jwt in Lean 4: design

## 1. What is modelled

All functions of `src/*.c`:

| source | model module |
|---|---|
| C library calls used (strlen, strchr, strncmp, strncpy, memcmp, strstr, strtoll, snprintf PRIu64, isspace, tolower) | `Verif/Model/CLib.lean` |
| heap: malloc/calloc/free (`src/version.c`), chillbuff growth, with an arbitrary failure schedule | `Verif/Model/Heap.lean` |
| `include/l8w8jwt/retcodes.h`, `algs.h`, `claim.h` constants | `Verif/Model/RetCodes.lean` |
| `src/base64.c` | `Verif/Model/Base64.lean` |
| `src/util.c` | `Verif/Model/Util.lean` |
| `src/claim.c` | `Verif/Model/Claim.lean` |
| build flags, clock, mbedTLS, ed25519, checknum | `Verif/Model/Env.lean` (parameters) |
| `src/encode.c` | `Verif/Model/Encode.lean` |
| jsmn tokenizer (`lib/jsmn`, submodule) | `Verif/Model/Jsmn.lean` |
| `src/decode.c` | `Verif/Model/Decode.lean` |
| operations on mbedTLS objects and key copies in `write_signature`, `l8w8jwt_verify_signature`; wiping in `l8w8jwt_free_claims` | `Verif/Model/Resource.lean` |

Every definition cites file and lines. Conventions:

* Bytes are `UInt8`, byte strings `List UInt8`. Integer promotions are explicit (`toNat`, then truncation).
* A pointer argument is `Option Bytes`: `none` is NULL, `some mem` is the memory from the pointer to the end of the object it
  points into. A C string is memory containing a NUL. Reading past the end of `mem`, dereferencing NULL, a failed table index,
  signed overflow, freeing a block that is not live, ... is the distinct outcome `Except.error ub`. Theorems about results are
  about runs that end with `Except.ok`; separate theorems say when that is the case.
* `size_t` values are `Nat`; where the code can wrap (base64 output size, pointer differences) the wrap modulo 2^64 is explicit.
* Allocation (`Sched`): two arbitrary schedules: `failAlloc` (which malloc/calloc returns NULL) and `failGrow` (which
  `chillbuff_push_back` fails, and after how many elements). The heap counts events and lists the live blocks. `Sched.good`: nothing
  fails; `noGrowFail`: pushes do not fail; `noAllocFail`: blocks can be allocated, pushes may fail. Theorems without such a hypothesis hold for every schedule.
* A heap block's content travels with the pointer, as no two live pointers of the code write to the same block.
* `char` signedness, EdDSA/small-stack build flags, the clock, uninitialised memory and all cryptographic primitives are
  parameters (`Env`): theorems hold for every value unless a hypothesis says otherwise.
* Loops are structural recursion over the remaining input, or recursion with a fuel that is proved or evidently sufficient (each
  round consumes an element).

Simplifications that are not just a change of notation:

* `chillbuff_init` failing leaves `array = NULL`, `length = 0` (upstream). `chillbuff_push_back` may fail at any
  call that needs more than the initial capacity (the literals in the code: 256 bytes, 1024 bytes, 16 claims) and then appends a
  prefix of arbitrary length at least up to that capacity; that later growth needs no allocation for a while is not modelled (so
  more failures are considered than can happen). The block of the array keeps its identity.
* In `l8w8jwt_write_claims` a NULL value with nonzero length is undefined (the code passes NULL to memcpy-like functions).
* jsmn is a state machine over the bytes; positions are unbounded integers (upstream: `unsigned`/`int`), so the model is faithful
  for JSON texts below 2 GiB. `size` and `toksuper` are left out: l8w8jwt does not read them.
* The uninitialised part of the token array (decode.c:244) is an arbitrary function `Env.garbage`.
* Memory inside mbedTLS is not modelled, except as "may own memory" in `Model/Resource.lean`.
* `Model/Resource.lean` follows the same control flow a second time; `C55_sign_same_run` and `C55_verify_same_run` prove that both
  descriptions end with the same code in every defined run. That each call is given the right event is part of the trusted base.

### The text of the code

For part of the code there is a second, more literal layer (`Verif/C/`): the text of /repo/src itself is parsed and executed, and it is
proved that the executions are the ones of the model above. Theorems `C73` and following are about these executions only.
It covers all of /repo/src: base64.c, util.c, version.c, claim.c, encode.c and decode.c. The programs of /repo/examples are executed in
the same way, from their start to their end (C84 and following).

| part | module |
|---|---|
| syntax trees | `C/Syntax.lean` |
| semantics: states, expressions, statements, function calls | `C/Sem.lean` |
| library functions that are called (malloc, calloc, free, memset, memcpy, memcmp, strlen, strchr, strstr, strncmp, strncpy, strtoll, tolower, snprintf; mbedtls_platform_zeroize; chillbuff_init, _push_back, _clear, _free; jsmn_init, jsmn_parse, checknum, time), with the meaning they have in the model | `C/Ext.lean` |
| the functions of mbedTLS and of the Ed25519 library that `write_signature` and `l8w8jwt_verify_signature` call, in terms of the contract `Crypto` (a context is an object whose cells say what it was made from) | `C/Mbed.lean` |
| lexer, preprocessor (`#define`, `#if`), parser, type checker (promotions, conversions, layout); command `c_unit` | `C/Parse.lean` |
| the text, copied by `tools/ctext.py` (`python3 tools/ctext.py --check` compares it with /repo) | `C/Text.lean` |
| the resulting terms | `C/Unit.lean` |
| which function calls which | `C/Link.lean` (`prog`, `cx`) |
| the text of /repo/examples, copied by the same script, and the resulting terms | `C/ExText.lean`, `C/ExUnit.lean` |
| running a program: `printf`, the state at the start | `C/ExSem.lean` |
| symbolic execution of the straight-line part of a program (`symRun`, proved correct by `symRun_sound`), what `printf` prints | `C/ExRun.lean` |
| refinement proofs: `strncmpic_text`, `hexstr2bin_text`, `base64_encode_text`, `base64_decode_text`, `version_*_text`, `get_claim_text`, `free_claims_text`, `wp_escape`, `write_claims_text`, `wp_unescape`, `wp_decode_segments`, `wp_parse_claims`, `wp_validate_claims`, `wp_verify_signature`, `wp_decode`, `wp_decode_raw`, `wp_decode_nov`, `params_init_text`, `encoding_params_init_text`, `wp_validate_enc`, `header_and_payload_text`, `wp_write_signature`, `wp_write_token`, `encode_text` | `C/*Proof.lean`, `C/Decode*.lean`, `C/Encode*.lean`, `C/Header*.lean`, `C/Sign*.lean`, `C/Verify*.lean` |

* Memory is a collection of objects (local, heap, `static`), each a list of cells. A cell holds a scalar (integer, pointer or
  uninitialised); a `char` takes one cell and so does a pointer or a `size_t`. So there is no aliasing between types, and `sizeof` counts
  cells; the code uses `sizeof` only to allocate and clear whole objects. A pointer is an object and an offset. Accesses outside of the object, of freed objects or of dead
  local objects, reading uninitialised cells, signed overflow, division by zero, shifts by too much or of negative numbers, and pointer arithmetic out of the object
  stop the execution with an error. The theorems say that no such error happens.
* Zeros written by `memset` are read as NULL by a pointer type. The fixed array of 64 jsmn tokens starts with the values `Env.garbage` (any 32-bit values), as in the model.
* The text is preprocessed four times: with EdDSA (`C.Src`) and without it (`C.Src0`, the default of algs.h), and both with
  `L8W8JWT_SMALL_STACK` (`C.SrcS`, `C.SrcS0`). EdDSA changes only three functions (`units_same`) and the small stack only two
  (`units_small`, `units_small0`); `prog` takes them from the unit that `Env.eddsa` and `Env.smallStack` name, so that the theorems are
  about all four builds. Of the two functions that keep the key and the signature in local arrays or in allocated blocks, the proofs are
  done once, with the place of these objects as a parameter (`Lay`).
* Types are those of a 64-bit platform (`int` 32 bits, `long` and `size_t` 64 bits), `char` of either signedness; conversions to signed types are two's complement. Operands are evaluated from
  left to right; no expression of the code depends on the order. Enumerations are unsigned.
* Loops run with a bound (`fuel`) on the number of iterations; the theorems say which bound suffices, so that termination is part of them.
* Programs of /repo/examples: `printf` knows the conversions `%s`, `%d` and `%02x` and appends its text to the object `.ext 0`, which stands
  for standard output; `printf` always succeeds. Arrays of `char` at file scope, which the programs only read, are represented as
  string literals. `main` is called without arguments, with no blocks allocated.
* The parser is a Lean program that makes closed terms; the terms, not the parser, occur in the theorems. That the terms mean what the C text means
  (parser and semantics) is part of the trusted base; `#print L8w8jwt.C.Src.l8w8jwt_strncmpic` shows a term.

### Tests of the model

The faithfulness of the model cannot be proved, but it is tested, in `Verif/Check/` (no theorem of the manifest depends on it). These
are tests, not proofs, and most are run by the evaluator (`#guard`) rather than the kernel.

* `Check/Sha2.lean`, `Check/Pk.lean`: SHA-2, HMAC, RSA (PKCS #1 v1.5 and PSS), ECDSA, Ed25519, PEM/DER keys and certificates, from the
  standards, as a value of the parameter `Env`. `Check/Contract.lean` proves that it satisfies `CryptoOk`.
* `Check/Recorded.lean`: the tokens recorded in all 14 `examples/*/decode.c`, which the real library made. From the parameters in
  `examples/*/encode.c` the model makes the same bytes (HS*, RS*, EdDSA) or the same signed text (PS*, ES*), and it accepts all of them
  in exactly the period they are valid.
* `Check/RepoTests.lean`: the repository's test suite `tests/tests.c`, translated statement by statement (all tests except the empty
  one). Everything the tests assert holds of the model. One round of one test (tests.c:1138, HS256 read as HS384) is undefined
  behaviour in the model and in C: the comparison reads 48 bytes of a buffer of 46 (C47).

## 2. What is not in /repo and how it is treated

`lib/*` are empty git submodules here.

* **jsmn**: modelled from the upstream source (zserge/jsmn, non-strict, no parent links; `decode.c:21` only defines `JSMN_STATIC`).
  Part of the trusted base.
* **chillbuff**: as described above. Part of the trusted base.
* **checknum**: an arbitrary function. `IntsOk`: decimal integers are classified as integers.
* **mbedTLS / ed25519**: arbitrary functions. Contracts are explicit hypotheses: `CryptoOk` (lengths of MACs, hashes and
  signatures), `Matching` (the verification key accepts what the signing key signed).

Not modelled: the directory tests (but see the tests of the model above; examples/*/encode.c, decode.c and eddsa/keygen.c are, see C84-C89), the scripts, CMake files, `timehelper.h` beyond "returns a number", thread safety, timing.

## 3. Vocabulary of the hypotheses

* `TokenMem p tok`: `params.jwt` points to `tok` followed by NUL, and the stated length is that of `tok` (with or without NUL).
* `TextsOk`, `KeyReadable`, `VerKeyReadable`, `ExpectOk`: the pointers given by the caller are readable for the stated lengths.
* `VerSafe`, `DecSafe`, `Tame`: exact conditions under which verification/decoding is defined (see C47).
* `SepOk`: the comma between registered and additional claims is written when needed (see C20).
* `NowOk`: clock and tolerances do not overflow `time_t` arithmetic.
* `jsonOf a`, `readText a`: what a base64url text stands for, and the part of it before the first NUL. The claims in it are described
  by an independent JSON grammar (`Spec/JsonText.lean`, `Spec/JsonClaims.lean`) and, for texts that are not JSON, by the grammar of
  relaxed JSON in `Spec/Loose.lean` (`Parsed`; `Roomy`, `OverReads`, `Leaky` are defined with it).
* Return codes are specified as numbers in `Spec/Codes.lean`, and which one applies in `Spec/Encode.lean` (`SignFails`),
  `Spec/Decode.lean` (`SegCode`, `VerFails`) and `Spec/Outcome.lean` (`EncCode`, `DecCode`). The conditions under which properties are
  proved (`SizesOk`, `PemFits`, `Tame`, `SigFits`, `Views`, `Sched.good`, ...) are in `Verif/Spec/` too.

## 4. Per property

R = refinement/functional characterisation against a spec in `Verif/Spec/`, I = induction over input/loop, N = the claim is false of
the code: a counterexample (or a whole class of them) is proved, and the strongest true part is proved as `_partial`.

| id | how |
|---|---|
| C01 | I on 3-byte groups: decoder loop undoes encoder loop, for both modes |
| C02 | R to a bit-level RFC 4648 spec |
| C03 | arithmetic over all n < 2^64 with explicit wrap |
| C04 | decoder model performs checked writes into a buffer of the allocated size; no error outcome |
| C05 | I: decoder = decoder of the filtered text; exact rejection condition |
| C06 | corollary of the loop invariant |
| C07 | N ("AAB=" style tail) + partial: exact condition; encoder outputs |
| C08 | I over digit pairs, spec = positional value |
| C09 | N + the bytes written for any characters (`laxHex`) |
| C10 | R to a list spec; N for n = 0 / both ended; partial otherwise |
| C11 | I against an independent JSON string lexer |
| C12 | N (\u0001) + exact characterisation |
| C13 | N for signed char and bytes from 0x80 on; partial otherwise |
| C14 | R to `intercalate` |
| C15 | N (prefix match) + partial |
| C16 | decision logic |
| C17 | R composition |
| C18 | finite table + R; N (header claims that write nothing) |
| C19 | decision logic |
| C20 | N (implicit lengths; all-NULL keys) + partial under `SepOk` |
| C21 | R to decimal; N for negative values |
| C22 | R; N for PSS with odd bit lengths |
| C23 | decision logic on crypto parameters |
| C24, C25 | Hoare-style invariants over all schedules |
| C26 | N (truncated token, lost claims) + what can be lost |
| C27 | decision logic |
| C28 | soundness over all tokens and schedules; N for ids outside 0..13 |
| C29 | N (longer signatures) + exact condition |
| C30 | noninterference |
| C31, C32 | case analysis over all paths and schedules |
| C33 | R to an independent flag specification; N for prefix-shadowed keys, typ details |
| C34 | monotonicity |
| C35 | N (exponent notation) + integers, decimals |
| C36, C37, C38, C39 | relational |
| C40 | composition of encoder and verifier; N for PSS bit lengths, HMAC keys that look like certificates |
| C41 | composition of everything; N |
| C42 | I over JSON documents |
| C43 | the claims of two tokens that differ only in string contents differ only there |
| C44 | N for every text of 64 items or more that ends with a composite or half a claim (63: depends on garbage); all other texts: equivalence |
| C45 | N (trailing members, unbalanced brackets) + partial; the exact language is C57 |
| C46 | N ("trueX") + every JSON object |
| C47 | N (short HMAC signature, wrong key type, typ) + partial under exact conditions |
| C48 | N for length 8192; partial otherwise |
| C49 | N (every text with unmatched brackets and more than 64 items; failed growth) + partial |
| C50 | I on digits base 256 |
| C51 | N (2049-bit) + partial for multiples of 8 |
| C52 | total correctness of the encoder |
| C53 | N (small stack, 8192-byte keys, signed char) + partial |
| C54 | composition of C41 and C33; N (header claim "issuer") |
| C55 | state machine over object events, all paths |
| C56 | invariant "blank behind the text" on claim blocks; ownership |
| C57 | grammar of relaxed JSON, proved sound, complete and unambiguous for the tokeniser and the claim loop |
| C58 | ranked reasons for failure (`EncCode`, `DecCode`: exactly one code each), proved to be what the code returns |
| C59 | code as a function of NULL arguments, length, text and the outcome of the allocation |
| C60 | N for the signature text (encoder) and the claims (decoder) + all codes that a failing allocation can cause |
| C61 | I: if and only if, with conditions on token, key and parameters only |
| C62 | R: relation `Answer` (`Spec/Outcome.lean`), shown to be total and functional |
| C63 | corollary: `Answer` is invariant under `SameRequest` and changes of the environment |
| C64 | I: if and only if, with conditions on the parameters only (texts below 2^62 bytes) |
| C65 | R: relation `EncAnswer` (`Spec/Outcome.lean`), shown to be total and functional |
| C66 | corollary: `EncAnswer` is invariant under `SameToken` and changes of the environment |
| C67 | R: every run against `Answer`; N (duplicate claims beyond the 16th) + partial |
| C68 | R: every history of calls, over the spec of a client (`Spec/Client.lean`); N (leaky tokens, any number of blocks) + partial |
| C69 | R: decode, over the spec of C62; N (every token: ignored characters, lengthened signatures, leading zeros; `Spec/Spelling.lean`) + partial |
| C70 | R: decode and decode_raw_no_validation, all schedules (`Spec/Size.lean`) |
| C71 | R: encode, all schedules |
| C72 | R: raw decoding, all schedules (`Spec/Handed.lean`) |
| C76 | the same for src/claim.c; corollaries of C13, C14, C15 |
| C77, C78 | the same for src/decode.c; corollaries of C47, C49, C62, C67, C72 |
| C79, C80 | the same for src/encode.c; corollaries of C64, C65, C71, C16 |
| C81 | the text of l8w8jwt_encode, then that of l8w8jwt_decode; corollary of C41 |
| C82 | the defects of the `_false` theorems, in executions of the text of l8w8jwt_encode and l8w8jwt_decode |
| C83 | what the text of l8w8jwt_decode stores, against signature and claims of the token; corollary of C28, C67 |
| C84 | the text of examples/*/encode.c from start to end: symbolic execution, then C79; negation: the first allocation fails |
| C85 | the text of examples/*/decode.c from start to end: symbolic execution, then the text of l8w8jwt_decode (C77); the claims of the tokens by C41's lemmas |
| C86 | C84, then C85 with the token that was printed |
| C87 | the text of examples/eddsa/keygen.c, its four loops by the list of their states (`exec_loop`); random numbers, SHA-512 and key derivation are arbitrary functions |
| C88 | the text of examples/rs256/decode.c: the first call as in C85, then what the functions of raw decoding store (C77 for them), one statement after the other with the invariant `Going` |
| C89 | the model does not depend on `Env.eddsa` but for algorithm 13 (`decode_build`, `encode_build`), then C77 and C79 in either build |
| C90 | N (failing allocations) + partial: C77, C78 and C79 in either build; the answer they describe does not depend on `Env.smallStack` |
| C91 | the checks at the start of the model functions, then C77 and C78 (`decode_text`, `decode_raw_text`, `decode_raw_nv_text`) with nothing written |
| C73, C74, C75 | symbolic execution of the parsed text with loop invariants; refinement of the model; corollaries of C01, C02, C05, C59, C09, C10 |

## 5. Findings

Behaviour of the code that contradicts its documentation or is undefined, each proved in the model:

* `alg` outside 0..13 (including -2, set by `l8w8jwt_decoding_params_init`) decodes without signature verification (C28).
* HMAC: a signature shorter than the MAC is over-read; a longer one is accepted if it starts with the MAC (C29, C47).
* HMAC key containing `-----BEGIN CERTIFICATE-----` is parsed as a certificate (C40).
* PSS and Ed25519 verification read a fixed number of signature bytes whatever the length (C47). PS*/ES* with a key of another
  type dereference NULL (C47). No curve or key size check when decoding. The last byte of an odd-length ES* signature is ignored.
* Key of 8192 bytes without NUL: reads past the buffer (C48).
* Base64: the byte after the decoded text can be nonzero (C07); other characters and data after padding are ignored (C05); `int`
  overflow for texts over 1.5 GiB (C02).
* `escape_table[c]` with signed `char` and bytes from 0x80 on: negative index (C13). `\uXXXX` is never unescaped (C12).
* `l8w8jwt_get_claim` matches prefixes; header claims come first: a header claim "issuer" is taken for "iss" (C15, C33, C54).
* typ is compared by prefix, with length 0 always fails, and non-ASCII bytes reach `tolower` as negative values (C10, C33, C47).
* `strtoll` on non-integers: `nbf: 1e12` passes (C35). Negative `exp` is printed as 2^64 - x (C21).
* Comma missing or superfluous for implicit lengths or claims without key (C18, C20).
* 63 or more JSON tokens with a composite last value: token array over-read; even own tokens with 31 or more claims (C44, C41).
* Texts such as `{}"a":1`, `}`, `,{"a" 1 "b":2}` are accepted (C45); `trueX` is a boolean (C46).
* Token array leaked for more than 64 tokens and unmatched brackets (C49): a remote memory leak, no valid signature needed.
* Failed buffer growth: claims dropped or token truncated, reported as success (C26), and leaks (C49).
* Failed growth of the claims buffer can hide a claim, so that a later one of the same name is validated instead (C67).
* A sender who does not know the key can make a service that decodes tokens lose memory, one block for each token (C68).
* Every accepted token can be turned into arbitrarily many other texts that are accepted, without knowing the key (C69).
* Lack of memory is reported as base64 failure (signature text) or malformed token (claims) (C60).
* Small stack builds: `mbedtls_platform_zeroize(NULL, 8192)` when out of memory (C53, C90).
* RSA-PSS signature truncated if the modulus bit length is not a multiple of 8 (C51).
* The repository's own test suite performs an over-read of C47 (`Check/RepoTests.lean`).
* `l8w8jwt_decode_raw` hands out segments even when it returns an error, contrary to its documentation (C72).
* examples/*/encode.c print and free `jwt` without looking at the return code: a variable without a value, if encoding failed early (C84).
* examples/hs256/decode.c sets `alg` to -1 before the call: the signature is not checked at all; the claims are never freed (C85).
* examples/rs512/decode.c asks for `nbf`, which its token does not have: it can never report success (C85). All recorded tokens
  have expired since January 2021 (C85).
* examples/eddsa/keygen.c multiplies the first half of its random seed with bytes of a hash of the command line (`seed[i % 16] *= md[i]`)
  instead of combining them reversibly: unless all 64 bytes of the hash are odd, random bits are lost, about 61 of the 128 on average
  for a random hash; it ignores the return value of `ed25519_create_seed`, so that without random numbers it prints the key of an
  all-zero seed (C87).
* examples/rs256/decode.c prints header and payload without looking at the return codes: NULL is handed to `%s` if the token cannot be
  decoded or memory is short (C88).
* In the default build, without EdDSA, examples/eddsa/decode.c prints a validation result that was never stored (an uninitialised
  variable), and examples/eddsa/encode.c uses `jwt` although nothing was stored in it (C89).

## 6. Trusted base

Lean's kernel; the axioms below; the faithfulness of the model modules to the cited C lines (for
src/base64.c, src/util.c, src/version.c, src/claim.c, src/encode.c and src/decode.c, it suffices to trust the parser and the semantics in `Verif/C/`); the treatment of submodules in
section 2. No axioms are added, no `sorry`, `native_decide` or `bv_decide` is used.

Axioms: every theorem named in MANIFEST.json depends on at most `propext`, `Classical.choice`, `Quot.sound`. Those that need fewer:

* `propext, Quot.sound`: `C03_base64_size`, `C08_hex_correct`, `C08_hex_odd`, `C08_hex_too_small`, `C09_hex_exact`, `C10_strncmpic_defined`, `C10_strncmpic_partial`, `C18_names_distinct`, `C23_requirements`, `C35_integer_value`, `C50_be_value`, `C50_recover`, `C55_sign_same_run`, `emits_signs`
* `propext`: `C05_reject_count`, `C08_hex_bad_args`, `C10_strncmpic_false`, `C15_get_claim_null`, `C31_empty_signature`, `C35_exponent`, `C39_same_key`, `C50_widths`, `C55_oom_tidy`, `C55_sign_tidy`

Seeded faults: `seeded/LOG.jsonl`. An entry says what failed in the proofs of the time it was made; it was not rerun on every later
version. 42 entries survived; a `note` says which are judged equivalent by reading and which were simply not rerun against the later
text theorems. In S01-S04 the failing theorem compares a function body with the expected statements, so it rejects any change of that
body; the properties listed there were derived by hand.
