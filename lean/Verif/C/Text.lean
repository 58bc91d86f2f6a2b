import Verif.C.Parse
/-!
# The text of /repo/src

The C text of the functions, copied from /repo by a script (lines as given, nothing changed; headers without their comments).
Declarations of library functions and types that are not in /repo are in `externs`.
-/

namespace L8w8jwt.C.Text

/-- Declarations of the library functions that /repo/src calls (C standard library; lib/ is not in /repo). Enumeration values:
jsmn.h and mbedtls/md.h as documented upstream; the model does not depend on the numbers of the latter. -/
def externs : String := r#"
#define L8W8JWT_ENABLE_EDDSA 1
#define PRIu64 "lu"
#define CHILLBUFF_SUCCESS 0
typedef long long time_t;
typedef long long l8w8jwt_time_t;
void free(void* p);
void* malloc(size_t size);
void* calloc(size_t nmemb, size_t size);
void* memset(void* s, int c, size_t n);
void* memcpy(void* d, const void* s, size_t n);
int memcmp(const void* a, const void* b, size_t n);
size_t strlen(const char* s);
char* strchr(const char* s, int c);
char* strstr(const char* s, const char* t);
int strncmp(const char* a, const char* b, size_t n);
char* strncpy(char* d, const char* s, size_t n);
long long strtoll(const char* s, char** e, int base);
int tolower(int c);
int snprintf(char* s, size_t n, const char* format, unsigned long v);
l8w8jwt_time_t l8w8jwt_time(l8w8jwt_time_t* t);
void mbedtls_platform_zeroize(void* p, size_t n);
int checknum(const char* s, size_t n);
enum chillbuff_growth_method { CHILLBUFF_GROW_LINEAR, CHILLBUFF_GROW_DUPLICATIVE };
struct chillbuff { void* array; size_t length; size_t capacity; size_t element_size; enum chillbuff_growth_method growth; };
typedef struct chillbuff chillbuff;
int chillbuff_init(chillbuff* b, size_t capacity, size_t element_size, enum chillbuff_growth_method growth);
int chillbuff_push_back(chillbuff* b, const void* elements, size_t n);
void chillbuff_clear(chillbuff* b);
void chillbuff_free(chillbuff* b);
enum jsmntype { JSMN_UNDEFINED = 0, JSMN_OBJECT = 1, JSMN_ARRAY = 2, JSMN_STRING = 4, JSMN_PRIMITIVE = 8 };
struct jsmntok { enum jsmntype type; int start; int end; int size; };
typedef struct jsmntok jsmntok_t;
struct jsmn_parser { unsigned int pos; unsigned int toknext; int toksuper; };
typedef struct jsmn_parser jsmn_parser;
void jsmn_init(jsmn_parser* p);
int jsmn_parse(jsmn_parser* p, const char* js, size_t n, jsmntok_t* tokens, unsigned int k);
"#

/-- Declarations of mbedTLS and of the ed25519 library, as far as used. The structures are those of Verif/C/Mbed.lean. Functions that
are passed as arguments are represented by their names. -/
def mbed : String := r#"
#define mbedtls_entropy_func "mbedtls_entropy_func"
#define mbedtls_ctr_drbg_random "mbedtls_ctr_drbg_random"
#define MBEDTLS_RSA_PKCS_V21 1
enum mbedtls_md_type { MBEDTLS_MD_NONE = 0, MBEDTLS_MD_SHA256 = 9, MBEDTLS_MD_SHA384 = 10, MBEDTLS_MD_SHA512 = 11 };
typedef enum mbedtls_md_type mbedtls_md_type_t;
struct mbedtls_md_info { int type; };
typedef struct mbedtls_md_info mbedtls_md_info_t;
enum mbedtls_pk_type { MBEDTLS_PK_RSA = 1, MBEDTLS_PK_ECDSA = 4, MBEDTLS_PK_RSA_ALT = 5, MBEDTLS_PK_RSASSA_PSS = 6 };
enum mbedtls_ecp_group_id { MBEDTLS_ECP_DP_SECP256R1 = 3, MBEDTLS_ECP_DP_SECP384R1 = 4, MBEDTLS_ECP_DP_SECP521R1 = 5,
  MBEDTLS_ECP_DP_SECP256K1 = 12 };
struct mbedtls_pk_context { int kind; void* key; void* pw; int padding; };
typedef struct mbedtls_pk_context mbedtls_pk_context;
typedef struct mbedtls_pk_context mbedtls_rsa_context;
typedef struct mbedtls_pk_context mbedtls_ecp_keypair;
struct mbedtls_x509_crt { mbedtls_pk_context pk; };
typedef struct mbedtls_x509_crt mbedtls_x509_crt;
struct mbedtls_entropy_context { int state; };
typedef struct mbedtls_entropy_context mbedtls_entropy_context;
struct mbedtls_ctr_drbg_context { int state; };
typedef struct mbedtls_ctr_drbg_context mbedtls_ctr_drbg_context;
struct mbedtls_mpi { int value; };
typedef struct mbedtls_mpi mbedtls_mpi;
struct mbedtls_ecp_group { int id; };
struct mbedtls_ecdsa_context { struct mbedtls_ecp_group grp; mbedtls_ecp_keypair d; mbedtls_ecp_keypair Q; };
typedef struct mbedtls_ecdsa_context mbedtls_ecdsa_context;
const mbedtls_md_info_t* mbedtls_md_info_from_type(mbedtls_md_type_t md_type);
int mbedtls_md(const mbedtls_md_info_t* md_info, const unsigned char* input, size_t ilen, unsigned char* output);
int mbedtls_md_hmac(const mbedtls_md_info_t* md_info, const unsigned char* key, size_t keylen, const unsigned char* input, size_t ilen, unsigned char* output);
void mbedtls_entropy_init(mbedtls_entropy_context* ctx);
void mbedtls_entropy_free(mbedtls_entropy_context* ctx);
void mbedtls_ctr_drbg_init(mbedtls_ctr_drbg_context* ctx);
void mbedtls_ctr_drbg_free(mbedtls_ctr_drbg_context* ctx);
int mbedtls_ctr_drbg_seed(mbedtls_ctr_drbg_context* ctx, const char* f_entropy, void* p_entropy, const unsigned char* custom, size_t len);
void mbedtls_pk_init(mbedtls_pk_context* ctx);
void mbedtls_pk_free(mbedtls_pk_context* ctx);
int mbedtls_pk_parse_key(mbedtls_pk_context* ctx, const unsigned char* key, size_t keylen, const unsigned char* pwd, size_t pwdlen, const char* f_rng, void* p_rng);
int mbedtls_pk_parse_public_key(mbedtls_pk_context* ctx, const unsigned char* key, size_t keylen);
int mbedtls_pk_can_do(const mbedtls_pk_context* ctx, int type);
size_t mbedtls_pk_get_bitlen(const mbedtls_pk_context* ctx);
int mbedtls_pk_sign(mbedtls_pk_context* ctx, mbedtls_md_type_t md_alg, const unsigned char* hash, size_t hash_len, unsigned char* sig, size_t sig_size, size_t* sig_len, const char* f_rng, void* p_rng);
int mbedtls_pk_verify(mbedtls_pk_context* ctx, mbedtls_md_type_t md_alg, const unsigned char* hash, size_t hash_len, const unsigned char* sig, size_t sig_len);
mbedtls_rsa_context* mbedtls_pk_rsa(const mbedtls_pk_context pk);
int mbedtls_rsa_set_padding(mbedtls_rsa_context* ctx, int padding, mbedtls_md_type_t hash_id);
int mbedtls_rsa_rsassa_pss_sign(mbedtls_rsa_context* ctx, const char* f_rng, void* p_rng, mbedtls_md_type_t md_alg, unsigned int hashlen, const unsigned char* hash, unsigned char* sig);
int mbedtls_rsa_rsassa_pss_verify(mbedtls_rsa_context* ctx, mbedtls_md_type_t md_alg, unsigned int hashlen, const unsigned char* hash, const unsigned char* sig);
mbedtls_ecp_keypair* mbedtls_pk_ec(const mbedtls_pk_context pk);
void mbedtls_ecdsa_init(mbedtls_ecdsa_context* ctx);
void mbedtls_ecdsa_free(mbedtls_ecdsa_context* ctx);
int mbedtls_ecdsa_from_keypair(mbedtls_ecdsa_context* ctx, const mbedtls_ecp_keypair* key);
int mbedtls_ecdsa_sign(struct mbedtls_ecp_group* grp, mbedtls_mpi* r, mbedtls_mpi* s, const mbedtls_ecp_keypair* d, const unsigned char* buf, size_t blen, const char* f_rng, void* p_rng);
int mbedtls_ecdsa_verify(struct mbedtls_ecp_group* grp, const unsigned char* buf, size_t blen, const mbedtls_ecp_keypair* Q, const mbedtls_mpi* r, const mbedtls_mpi* s);
void mbedtls_mpi_init(mbedtls_mpi* X);
void mbedtls_mpi_free(mbedtls_mpi* X);
int mbedtls_mpi_write_binary(const mbedtls_mpi* X, unsigned char* buf, size_t buflen);
int mbedtls_mpi_read_binary(mbedtls_mpi* X, const unsigned char* buf, size_t buflen);
void mbedtls_x509_crt_init(mbedtls_x509_crt* crt);
void mbedtls_x509_crt_free(mbedtls_x509_crt* crt);
int mbedtls_x509_crt_parse(mbedtls_x509_crt* chain, const unsigned char* buf, size_t buflen);
void ed25519_sign_ref10(unsigned char* signature, const unsigned char* message, size_t message_len, const unsigned char* private_key);
int ed25519_verify(const unsigned char* signature, const unsigned char* message, size_t message_len, const unsigned char* public_key);
"#

/-- include/l8w8jwt/version.h: version numbers, `L8W8JWT_API`, `L8W8JWT_SMALL_STACK`, declaration of `l8w8jwt_free`. -/
def version_h : String := r#"
#define L8W8JWT_VERSION 234
#define L8W8JWT_VERSION_STR "2.3.4"
#if defined(_WIN32) && defined(L8W8JWT_DLL)
#ifdef L8W8JWT_BUILD_DLL
#define L8W8JWT_API __declspec(dllexport)
#else
#define L8W8JWT_API __declspec(dllimport)
#endif
#else
#define L8W8JWT_API
#endif
#ifndef L8W8JWT_SMALL_STACK
#define L8W8JWT_SMALL_STACK 0
#endif
L8W8JWT_API void l8w8jwt_free(void* mem);
L8W8JWT_API int l8w8jwt_get_version_number(void);
L8W8JWT_API void l8w8jwt_get_version_string(char out[32]);
"#

/-- include/l8w8jwt/retcodes.h -/
def retcodes_h : String := r#"
#define L8W8JWT_SUCCESS 0
#define L8W8JWT_NULL_ARG 100
#define L8W8JWT_INVALID_ARG 200
#define L8W8JWT_OUT_OF_MEM 300
#define L8W8JWT_OVERFLOW 310
#define L8W8JWT_SIGNATURE_CREATION_FAILURE 400
#define L8W8JWT_SHA2_FAILURE 410
#define L8W8JWT_KEY_PARSE_FAILURE 420
#define L8W8JWT_BASE64_FAILURE 425
#define L8W8JWT_WRONG_KEY_TYPE 450
#define L8W8JWT_MBEDTLS_CTR_DRBG_SEED_FAILURE 500
#define L8W8JWT_DECODE_FAILED_INVALID_TOKEN_FORMAT 600
#define L8W8JWT_DECODE_FAILED_MISSING_SIGNATURE 700
#define L8W8JWT_UNSUPPORTED_ALG 800
"#

/-- include/l8w8jwt/algs.h -/
def algs_h : String := r#"
#define L8W8JWT_ALG_HS256 0
#define L8W8JWT_ALG_HS384 1
#define L8W8JWT_ALG_HS512 2
#define L8W8JWT_ALG_RS256 3
#define L8W8JWT_ALG_RS384 4
#define L8W8JWT_ALG_RS512 5
#define L8W8JWT_ALG_PS256 6
#define L8W8JWT_ALG_PS384 7
#define L8W8JWT_ALG_PS512 8
#define L8W8JWT_ALG_ES256 9
#define L8W8JWT_ALG_ES384 10
#define L8W8JWT_ALG_ES512 11
#define L8W8JWT_ALG_ES256K 12
#define L8W8JWT_ALG_ED25519 13
"#

/-- include/l8w8jwt/claim.h -/
def claim_h : String := r#"
struct chillbuff;
#define L8W8JWT_CLAIM_TYPE_STRING 0
#define L8W8JWT_CLAIM_TYPE_INTEGER 1
#define L8W8JWT_CLAIM_TYPE_NUMBER 2
#define L8W8JWT_CLAIM_TYPE_BOOLEAN 3
#define L8W8JWT_CLAIM_TYPE_NULL 4
#define L8W8JWT_CLAIM_TYPE_ARRAY 5
#define L8W8JWT_CLAIM_TYPE_OBJECT 6
#define L8W8JWT_CLAIM_TYPE_OTHER 7
struct l8w8jwt_claim
{
    char* key;
    size_t key_length;
    char* value;
    size_t value_length;
    int type;
};
L8W8JWT_API void l8w8jwt_free_claims(struct l8w8jwt_claim* claims, size_t claims_count);
L8W8JWT_API int l8w8jwt_write_claims(struct chillbuff* stringbuilder, struct l8w8jwt_claim* claims, size_t claims_count);
L8W8JWT_API struct l8w8jwt_claim* l8w8jwt_get_claim(struct l8w8jwt_claim* claims, size_t claims_count, const char* key, size_t key_length);
"#

/-- include/l8w8jwt/util.h -/
def util_h : String := r#"
#include <stdlib.h>
#include <stddef.h>
#include "version.h"
L8W8JWT_API int l8w8jwt_hexstr2bin(const char* hexstr, size_t hexstr_length, unsigned char* output, size_t output_size, size_t* output_length);
L8W8JWT_API int l8w8jwt_strncmpic(const char* str1, const char* str2, size_t n);
#ifndef L8W8JWT_PLATFORM_MALLOC_ALT
#define L8W8JWT_PLATFORM_MALLOC_ALT 0
#endif
#ifndef L8W8JWT_PLATFORM_CALLOC_ALT
#define L8W8JWT_PLATFORM_CALLOC_ALT 0
#endif
#ifndef L8W8JWT_PLATFORM_REALLOC_ALT
#define L8W8JWT_PLATFORM_REALLOC_ALT 0
#endif
#if L8W8JWT_PLATFORM_MALLOC_ALT
extern void *(*l8w8jwt_malloc) (size_t size);
#else
#define l8w8jwt_malloc malloc
#endif
#if L8W8JWT_PLATFORM_CALLOC_ALT
extern void *(*l8w8jwt_calloc) (size_t nmemb, size_t size);
#else
#define l8w8jwt_calloc calloc
#endif
#if L8W8JWT_PLATFORM_REALLOC_ALT
extern void *(*l8w8jwt_realloc) (void *ptr, size_t size);
#else
#define l8w8jwt_realloc realloc
#endif
"#

/-- include/l8w8jwt/base64.h (declarations) -/
def base64_h : String := r#"
L8W8JWT_API int l8w8jwt_base64_encode(int url, const uint8_t* data, size_t data_length, char** out, size_t* out_length);
L8W8JWT_API int l8w8jwt_base64_decode(int url, const char* data, size_t data_length, uint8_t** out, size_t* out_length);
"#

/-- include/l8w8jwt/decode.h -/
def decode_h : String := r#"
#ifndef L8W8JWT_MAX_KEY_SIZE
#define L8W8JWT_MAX_KEY_SIZE 8192
#endif
enum l8w8jwt_validation_result {
    L8W8JWT_VALID = (unsigned)0,
    L8W8JWT_ISS_FAILURE = (unsigned)1 << (unsigned)0,
    L8W8JWT_SUB_FAILURE = (unsigned)1 << (unsigned)1,
    L8W8JWT_AUD_FAILURE = (unsigned)1 << (unsigned)2,
    L8W8JWT_JTI_FAILURE = (unsigned)1 << (unsigned)3,
    L8W8JWT_EXP_FAILURE = (unsigned)1 << (unsigned)4,
    L8W8JWT_NBF_FAILURE = (unsigned)1 << (unsigned)5,
    L8W8JWT_IAT_FAILURE = (unsigned)1 << (unsigned)6,
    L8W8JWT_SIGNATURE_VERIFICATION_FAILURE = (unsigned)1 << (unsigned)7,
    L8W8JWT_TYP_FAILURE = (unsigned)1 << (unsigned)8
};
struct l8w8jwt_decoding_params
{
    char* jwt;
    size_t jwt_length;
    int alg;
    char* validate_iss;
    size_t validate_iss_length;
    char* validate_sub;
    size_t validate_sub_length;
    char* validate_aud;
    size_t validate_aud_length;
    char* validate_jti;
    size_t validate_jti_length;
    int validate_exp;
    int validate_nbf;
    int validate_iat;
    uint8_t exp_tolerance_seconds;
    uint8_t nbf_tolerance_seconds;
    uint8_t iat_tolerance_seconds;
    unsigned char* verification_key;
    size_t verification_key_length;
    char* validate_typ;
    size_t validate_typ_length;
};
L8W8JWT_API void l8w8jwt_decoding_params_init(struct l8w8jwt_decoding_params* params);
L8W8JWT_API int l8w8jwt_validate_decoding_params(struct l8w8jwt_decoding_params* params);
L8W8JWT_API int l8w8jwt_decode(struct l8w8jwt_decoding_params* params, enum l8w8jwt_validation_result* out_validation_result, struct l8w8jwt_claim** out_claims, size_t* out_claims_length);
L8W8JWT_API int l8w8jwt_decode_raw(struct l8w8jwt_decoding_params* params, enum l8w8jwt_validation_result* out_validation_result, char** out_header, size_t* out_header_length, char** out_payload, size_t* out_payload_length, uint8_t** out_signature, size_t* out_signature_length);
L8W8JWT_API int l8w8jwt_decode_raw_no_validation(struct l8w8jwt_decoding_params* params, char** out_header, size_t* out_header_length, char** out_payload, size_t* out_payload_length, uint8_t** out_signature, size_t* out_signature_length);

"#

/-- src/util.c:24-83 -/
def util_c : String := r#"
int l8w8jwt_hexstr2bin(const char* hexstr, const size_t hexstr_length, unsigned char* output, const size_t output_size, size_t* output_length)
{
    if (hexstr == NULL || output == NULL || hexstr_length == 0)
    {
        return 1;
    }

    const size_t hl = hexstr[hexstr_length - 1] ? hexstr_length : hexstr_length - 1;

    if (hl % 2 != 0)
    {
        return 2;
    }

    const size_t final_length = hl / 2;

    if (output_size < final_length + 1)
    {
        return 3;
    }

    for (size_t i = 0, ii = 0; ii < final_length; i += 2, ++ii)
    {
        output[ii] = (hexstr[i] % 32 + 9) % 25 * 16 + (hexstr[i + 1] % 32 + 9) % 25;
    }

    output[final_length] = '\0';

    if (output_length != NULL)
    {
        *output_length = final_length;
    }

    return 0;
}

int l8w8jwt_strncmpic(const char* str1, const char* str2, size_t n)
{
    size_t cmp = 0;
    int ret = -1;

    if (str1 == NULL || str2 == NULL)
    {
        return ret;
    }

    while ((*str1 || *str2) && cmp < n)
    {
        if ((ret = tolower((int)(*str1)) - tolower((int)(*str2))) != 0)
        {
            break;
        }
        
        cmp++;
        str1++;
        str2++;
    }

    return ret;
}
"#

/-- src/base64.c:112-310 -/
def base64_c : String := r#"
static const uint8_t TABLE[64 + 1] = "ABCDEFGHIJKLMNOPQRSTUVWXYZabcdefghijklmnopqrstuvwxyz0123456789+/";
static const uint8_t URL_SAFE_TABLE[64 + 1] = "ABCDEFGHIJKLMNOPQRSTUVWXYZabcdefghijklmnopqrstuvwxyz0123456789-_";

int l8w8jwt_base64_encode(const int url, const uint8_t* data, const size_t data_length, char** out, size_t* out_length)
{
    if (out == NULL || data == NULL || out_length == NULL)
    {
        return L8W8JWT_NULL_ARG;
    }

    if (data_length == 0)
    {
        return L8W8JWT_INVALID_ARG;
    }

    size_t olen = data_length * 4 / 3 + 4;

    olen += olen / 72;
    olen++;

    if (olen < data_length)
    {
        return L8W8JWT_OVERFLOW;
    }

    *out = l8w8jwt_malloc(olen);
    if (*out == NULL)
    {
        return L8W8JWT_OUT_OF_MEM;
    }

    uint8_t* pos = (uint8_t*)(*out);
    uint8_t* in = (uint8_t*)data;
    uint8_t* end = (uint8_t*)data + data_length;

    int line_length = 0;
    const uint8_t* table = url ? URL_SAFE_TABLE : TABLE;

    while (end - in >= 3)
    {
        *pos++ = table[in[0] >> 2];
        *pos++ = table[((in[0] & 0x03) << 4) | (in[1] >> 4)];
        *pos++ = table[((in[1] & 0x0f) << 2) | (in[2] >> 6)];
        *pos++ = table[in[2] & 0x3f];

        in += 3;

        line_length += 4;
        if (line_length >= 72 && !url)
        {
            *pos++ = '\n';
            line_length = 0;
        }
    }

    int sub = 0;
    if (end - in)
    {
        *pos++ = table[in[0] >> 2];

        if (end - in == 1)
        {
            *pos++ = table[(in[0] & 0x03) << 4];
            *pos++ = url ? '\0' : '=';
            if (url)
            {
                sub++;
            }
        }
        else
        {
            *pos++ = table[((in[0] & 0x03) << 4) | (in[1] >> 4)];
            *pos++ = table[(in[1] & 0x0f) << 2];
        }

        *pos++ = url ? '\0' : '=';
        line_length += 4;
        if (url)
        {
            sub++;
        }
    }

    if (line_length && !url)
    {
        *pos++ = '\n';
    }

    *pos = '\0';
    *out_length = (pos - (uint8_t*)*out) - sub;

    return L8W8JWT_SUCCESS;
}

int l8w8jwt_base64_decode(const int url, const char* data, const size_t data_length, uint8_t** out, size_t* out_length)
{
    if (data == NULL || out == NULL || out_length == NULL)
    {
        return L8W8JWT_NULL_ARG;
    }

    size_t in_length = data_length;

    if (in_length == 0)
    {
        return L8W8JWT_INVALID_ARG;
    }

    if (*(data + in_length - 1) == '\0')
    {
        in_length--;
    }

    size_t i;
    size_t count = 0;
    uint8_t dtable[256];
    const uint8_t* table = url ? URL_SAFE_TABLE : TABLE;

    memset(dtable, 0x80, 256);

    for (i = 0; i < 64; ++i)
    {
        dtable[table[i]] = (uint8_t)i;
    }

    dtable['='] = 0;

    for (i = 0; i < in_length; ++i)
    {
        if (dtable[(unsigned char)data[i]] != 0x80)
            count++;
    }

    int r = (int)(count % 4);

    if (count == 0 || r == 1 || (!url && r > 0)) // Invalid input string (format or padding).
        return L8W8JWT_INVALID_ARG;

    if (r == 3)
        r = 1;

    *out = l8w8jwt_calloc(count / 4 * 3 + 16, sizeof(uint8_t));
    if (*out == NULL)
    {
        return L8W8JWT_OUT_OF_MEM;
    }

    count = 0;
    int pad = 0;
    uint8_t tmp;
    uint8_t block[4];
    uint8_t* pos = *out;

    for (i = 0; i < in_length + r; ++i)
    {
        const unsigned char c = i < in_length ? data[i] : '=';

        tmp = dtable[c];

        if (tmp == 0x80)
            continue;

        if (c == '=')
            pad++;

        block[count] = tmp;
        count++;

        if (count == 4)
        {
            *pos++ = (block[0] << 2) | (block[1] >> 4);
            *pos++ = (block[1] << 4) | (block[2] >> 2);
            *pos++ = (block[2] << 6) | block[3];
            count = 0;
            if (pad)
            {
                if (pad == 1)
                {
                    pos--;
                }
                else if (pad == 2)
                {
                    pos -= 2;
                }
                else
                {
                    l8w8jwt_free(*out);
                    *out = NULL;
                    return L8W8JWT_INVALID_ARG; // Invalid padding...
                }
                break;
            }
        }
    }

    *out_length = pos - *out;

    return L8W8JWT_SUCCESS;
}
"#

/-- src/claim.c:30-188 -/
def claim_c : String := r#"
void l8w8jwt_free_claims(struct l8w8jwt_claim* claims, const size_t claims_count)
{
    if (claims == NULL)
    {
        return;
    }

    for (struct l8w8jwt_claim* claim = claims; claim < claims + claims_count; ++claim)
    {
        if (claim == NULL)
        {
            continue;
        }

        mbedtls_platform_zeroize(claim->key, claim->key_length);
        mbedtls_platform_zeroize(claim->value, claim->value_length);

        l8w8jwt_free(claim->key);
        l8w8jwt_free(claim->value);
    }

    if (claims_count != 0)
    {
        mbedtls_platform_zeroize(claims, claims_count * sizeof(struct l8w8jwt_claim));
    }

    l8w8jwt_free(claims);
}

static inline void l8w8jwt_escape_claim_string(struct chillbuff* stringbuilder, const char* string, const size_t string_length)
{
    static const char* escape_table[] = {
        "\\u0000", "\\u0001", "\\u0002", "\\u0003", "\\u0004", "\\u0005", "\\u0006", "\\u0007",
        "\\b", "\\t", "\\n", "\\u000b", "\\f", "\\r", "\\u000e", "\\u000f",
        "\\u0010", "\\u0011", "\\u0012", "\\u0013", "\\u0014", "\\u0015", "\\u0016", "\\u0017",
        "\\u0018", "\\u0019", "\\u001a", "\\u001b", "\\u001c", "\\u001d", "\\u001e", "\\u001f",
        NULL, NULL, "\\\"", NULL, NULL, NULL, NULL, NULL,
        NULL, NULL, NULL, NULL, NULL, NULL, NULL, "\\/",
        NULL, NULL, NULL, NULL, NULL, NULL, NULL, NULL,
        NULL, NULL, NULL, NULL, NULL, NULL, NULL, NULL,
        NULL, NULL, NULL, NULL, NULL, NULL, NULL, NULL,
        NULL, NULL, NULL, NULL, NULL, NULL, NULL, NULL,
        NULL, NULL, NULL, NULL, NULL, NULL, NULL, NULL,
        NULL, NULL, NULL, NULL, "\\\\", NULL, NULL, NULL,
        NULL, NULL, NULL, NULL, NULL, NULL, NULL, NULL,
        NULL, NULL, NULL, NULL, NULL, NULL, NULL, NULL,
        NULL, NULL, NULL, NULL, NULL, NULL, NULL, NULL,
        NULL, NULL, NULL, NULL, NULL, NULL, NULL, "\\u007f",
        NULL, NULL, NULL, NULL, NULL, NULL, NULL, NULL,
        NULL, NULL, NULL, NULL, NULL, NULL, NULL, NULL,
        NULL, NULL, NULL, NULL, NULL, NULL, NULL, NULL,
        NULL, NULL, NULL, NULL, NULL, NULL, NULL, NULL,
        NULL, NULL, NULL, NULL, NULL, NULL, NULL, NULL,
        NULL, NULL, NULL, NULL, NULL, NULL, NULL, NULL,
        NULL, NULL, NULL, NULL, NULL, NULL, NULL, NULL,
        NULL, NULL, NULL, NULL, NULL, NULL, NULL, NULL,
        NULL, NULL, NULL, NULL, NULL, NULL, NULL, NULL,
        NULL, NULL, NULL, NULL, NULL, NULL, NULL, NULL,
        NULL, NULL, NULL, NULL, NULL, NULL, NULL, NULL,
        NULL, NULL, NULL, NULL, NULL, NULL, NULL, NULL,
        NULL, NULL, NULL, NULL, NULL, NULL, NULL, NULL,
        NULL, NULL, NULL, NULL, NULL, NULL, NULL, NULL,
        NULL, NULL, NULL, NULL, NULL, NULL, NULL, NULL,
        NULL, NULL, NULL, NULL, NULL, NULL, NULL, NULL
    };

    for (size_t i = 0; i < string_length; ++i)
    {
        const char c = string[i];
        const char* e = escape_table[c];

        if (e)
        {
            chillbuff_push_back(stringbuilder, e, strlen(e));
        }
        else
        {
            chillbuff_push_back(stringbuilder, &c, 1);
        }
    }
}

int l8w8jwt_write_claims(struct chillbuff* stringbuilder, struct l8w8jwt_claim* claims, const size_t claims_count)
{
    if (stringbuilder == NULL || claims == NULL)
    {
        return L8W8JWT_NULL_ARG;
    }

    if (claims_count == 0)
    {
        return L8W8JWT_INVALID_ARG;
    }

    struct chillbuff escape_buffer;
    if (chillbuff_init(&escape_buffer, 256, sizeof(char), CHILLBUFF_GROW_LINEAR) != 0)
    {
        return L8W8JWT_OUT_OF_MEM;
    }

    int first = 1;
    for (struct l8w8jwt_claim* claim = claims; claim < claims + claims_count; ++claim)
    {
        if (claim->key == NULL)
        {
            continue;
        }

        if (!first)
        {
            chillbuff_push_back(stringbuilder, ",", 1);
        }

        const size_t key_length = claim->key_length ? claim->key_length : strlen(claim->key);
        const size_t value_length = claim->value_length ? claim->value_length : strlen(claim->value);

        chillbuff_clear(&escape_buffer);
        l8w8jwt_escape_claim_string(&escape_buffer, claim->key, key_length);

        chillbuff_push_back(stringbuilder, "\"", 1);
        chillbuff_push_back(stringbuilder, escape_buffer.array, escape_buffer.length);
        chillbuff_push_back(stringbuilder, "\":", 2);

        if (claim->type == L8W8JWT_CLAIM_TYPE_STRING)
        {
            chillbuff_push_back(stringbuilder, "\"", 1);

            chillbuff_clear(&escape_buffer);
            l8w8jwt_escape_claim_string(&escape_buffer, claim->value, value_length);

            chillbuff_push_back(stringbuilder, escape_buffer.array, escape_buffer.length);

            chillbuff_push_back(stringbuilder, "\"", 1);
        }
        else
        {
            chillbuff_push_back(stringbuilder, claim->value, value_length);
        }

        first = 0;
    }

    chillbuff_free(&escape_buffer);
    return L8W8JWT_SUCCESS;
}

struct l8w8jwt_claim* l8w8jwt_get_claim(struct l8w8jwt_claim* claims, const size_t claims_count, const char* key, const size_t key_length)
{
    if (claims == NULL || key == NULL || claims_count == 0 || key_length == 0)
        return NULL;

    for (struct l8w8jwt_claim* claim = claims; claim < claims + claims_count; ++claim)
    {
        if (strncmp(claim->key, key, key_length) == 0)
            return claim;
    }

    return NULL;
}
"#

/-- src/version.c:25-42 -/
def version_c : String := r#"
void l8w8jwt_free(void* mem)
{
    free(mem);
}

int l8w8jwt_get_version_number()
{
    return (int)L8W8JWT_VERSION;
}

void l8w8jwt_get_version_string(char out[32])
{
    const char version_string[] = L8W8JWT_VERSION_STR;
    const size_t version_string_length = sizeof(version_string) - 1;

    memcpy(out, version_string, version_string_length);
    out[version_string_length] = '\0';
}
"#

/-- src/decode.c:42-1045 -/
def decode_c : String := r#"
static inline void md_info_from_alg(const int alg, mbedtls_md_info_t** md_info, mbedtls_md_type_t* md_type, size_t* md_length)
{
    switch (alg)
    {
        case L8W8JWT_ALG_HS256:
        case L8W8JWT_ALG_RS256:
        case L8W8JWT_ALG_PS256:
        case L8W8JWT_ALG_ES256:
        case L8W8JWT_ALG_ES256K:
            *md_length = 32;
            *md_type = MBEDTLS_MD_SHA256;
            *md_info = (mbedtls_md_info_t*)mbedtls_md_info_from_type(MBEDTLS_MD_SHA256);
            break;

        case L8W8JWT_ALG_HS384:
        case L8W8JWT_ALG_RS384:
        case L8W8JWT_ALG_PS384:
        case L8W8JWT_ALG_ES384:
            *md_length = 48;
            *md_type = MBEDTLS_MD_SHA384;
            *md_info = (mbedtls_md_info_t*)mbedtls_md_info_from_type(MBEDTLS_MD_SHA384);
            break;

        case L8W8JWT_ALG_HS512:
        case L8W8JWT_ALG_RS512:
        case L8W8JWT_ALG_PS512:
        case L8W8JWT_ALG_ES512:
        case L8W8JWT_ALG_ED25519:
            *md_length = 64;
            *md_type = MBEDTLS_MD_SHA512;
            *md_info = (mbedtls_md_info_t*)mbedtls_md_info_from_type(MBEDTLS_MD_SHA512);
            break;

        default:
            break;
    }
}

static char* l8w8jwt_unescape_string(char* out, const char* in, const size_t n)
{
    for (size_t i = 0; i < n; ++i)
    {
        char c = in[i];
        if (c == '\\' && i + 1 < n)
        {
            switch (in[i + 1])
            {
                case '"':
                    c = '"';
                    ++i;
                    break;
                case '\\':
                    c = '\\';
                    ++i;
                    break;
                case '/':
                    c = '/';
                    ++i;
                    break;
                case 'b':
                    c = '\b';
                    ++i;
                    break;
                case 'f':
                    c = '\f';
                    ++i;
                    break;
                case 'n':
                    c = '\n';
                    ++i;
                    break;
                case 'r':
                    c = '\r';
                    ++i;
                    break;
                case 't':
                    c = '\t';
                    ++i;
                    break;
                default:
                    break;
            }
        }
        *(out++) = c;
    }
    return out;
}

static int l8w8jwt_unescape_claim(struct l8w8jwt_claim* claim, const char* key, const size_t key_length, const char* value, const size_t value_length)
{
    claim->key_length = 0;
    claim->key = l8w8jwt_calloc(sizeof(char), key_length + 1);

    claim->value_length = 0;
    claim->value = l8w8jwt_calloc(sizeof(char), value_length + 1);

    if (claim->key == NULL || claim->value == NULL)
    {
        free(claim->key);
        free(claim->value);
        return L8W8JWT_OUT_OF_MEM;
    }

    char* end_key = l8w8jwt_unescape_string(claim->key, key, key_length);
    *end_key = '\0';
    claim->key_length = (size_t)(end_key - claim->key);

    if (claim->type == L8W8JWT_CLAIM_TYPE_STRING)
    {
        char* end_value = l8w8jwt_unescape_string(claim->value, value, value_length);
        *end_value = '\0';
        claim->value_length = (size_t)(end_value - claim->value);
    }
    else
    {
        strncpy(claim->value, value, value_length);
        claim->value[value_length] = '\0';
        claim->value_length = value_length;
    }

    return L8W8JWT_SUCCESS;
}

static int l8w8jwt_decode_segments(const struct l8w8jwt_decoding_params* params, uint8_t** out_header, size_t* out_header_length, uint8_t** out_payload, size_t* out_payload_length, uint8_t** out_signature, size_t* out_signature_length)
{
    int r = L8W8JWT_SUCCESS;

    const int alg = params->alg;

    char* current = params->jwt;
    char* next = strchr(params->jwt, '.');

    if (next == NULL) /* No payload. */
    {
        return L8W8JWT_DECODE_FAILED_INVALID_TOKEN_FORMAT;
    }

    size_t current_length = next - current;

    r = l8w8jwt_base64_decode(true, current, current_length, out_header, out_header_length);
    if (r != L8W8JWT_SUCCESS)
    {
        if (r != L8W8JWT_OUT_OF_MEM)
            r = L8W8JWT_BASE64_FAILURE;
        goto exit;
    }

    current = next + 1;
    next = strchr(current, '.');

    if (next == NULL && alg != -1) /* No signature. */
    {
        r = L8W8JWT_DECODE_FAILED_MISSING_SIGNATURE;
        goto exit;
    }

    current_length = (next != NULL ? next : params->jwt + params->jwt_length) - current;

    r = l8w8jwt_base64_decode(true, current, current_length, out_payload, out_payload_length);
    if (r != L8W8JWT_SUCCESS)
    {
        if (r != L8W8JWT_OUT_OF_MEM)
            r = L8W8JWT_BASE64_FAILURE;
        goto exit;
    }

    if (next != NULL)
    {
        current = next + 1;
        current_length = (params->jwt + params->jwt_length) - current;

        r = l8w8jwt_base64_decode(true, current, current_length, out_signature, out_signature_length);
        if (r != L8W8JWT_SUCCESS)
        {
            if (r != L8W8JWT_OUT_OF_MEM)
                r = L8W8JWT_BASE64_FAILURE;
            goto exit;
        }
    }

    r = L8W8JWT_SUCCESS;

exit:
    return r;
}

static int l8w8jwt_parse_claims(chillbuff* buffer, char* json, const size_t json_length)
{
    jsmn_parser parser;
    jsmn_init(&parser);

    int r = jsmn_parse(&parser, json, json_length, NULL, 0);

    if (r == 0)
    {
        return L8W8JWT_SUCCESS;
    }
    else if (r < 0)
    {
        return L8W8JWT_DECODE_FAILED_INVALID_TOKEN_FORMAT;
    }

    jsmntok_t _tokens[64];
    jsmntok_t* tokens = r <= (sizeof(_tokens) / sizeof(_tokens[0])) ? _tokens : l8w8jwt_malloc(r * sizeof(jsmntok_t));

    if (tokens == NULL)
    {
        return L8W8JWT_OUT_OF_MEM;
    }

    jsmn_init(&parser);
    r = jsmn_parse(&parser, json, json_length, tokens, r);

    if (r < 0)
    {
        return L8W8JWT_DECODE_FAILED_INVALID_TOKEN_FORMAT;
    }

    if (tokens->type != JSMN_OBJECT)
    {
        r = L8W8JWT_DECODE_FAILED_INVALID_TOKEN_FORMAT;
        goto exit;
    }

    for (size_t i = 1; i < r; ++i)
    {
        struct l8w8jwt_claim claim;

        const jsmntok_t key = tokens[i];
        const jsmntok_t value = tokens[++i];

        if (i >= r || key.type != JSMN_STRING)
        {
            r = L8W8JWT_DECODE_FAILED_INVALID_TOKEN_FORMAT;
            goto exit;
        }

        switch (value.type)
        {
            case JSMN_UNDEFINED:
            {
                claim.type = L8W8JWT_CLAIM_TYPE_OTHER;
                break;
            }
            case JSMN_STRING:
            {
                claim.type = L8W8JWT_CLAIM_TYPE_STRING;
                break;
            }
            case JSMN_OBJECT:
            {
                claim.type = L8W8JWT_CLAIM_TYPE_OBJECT;

                while (tokens[i + 1].end <= value.end && i < r)
                {
                    ++i;
                }

                break;
            }
            case JSMN_ARRAY:
            {
                claim.type = L8W8JWT_CLAIM_TYPE_ARRAY;

                while (tokens[i + 1].end <= value.end && i < r)
                {
                    ++i;
                }

                break;
            }
            case JSMN_PRIMITIVE:
            {
                const int value_length = value.end - value.start;

                if (value_length <= 5 && (strncmp(json + value.start, "true", 4) == 0 || strncmp(json + value.start, "false", 5) == 0))
                {
                    claim.type = L8W8JWT_CLAIM_TYPE_BOOLEAN;
                    break;
                }

                if (value_length == 4 && strncmp(json + value.start, "null", 4) == 0)
                {
                    claim.type = L8W8JWT_CLAIM_TYPE_NULL;
                    break;
                }

                switch (checknum(json + value.start, value_length))
                {
                    case 1: {
                        claim.type = L8W8JWT_CLAIM_TYPE_INTEGER;
                        break;
                    }
                    case 2: {
                        claim.type = L8W8JWT_CLAIM_TYPE_NUMBER;
                        break;
                    }
                    default: {
                        r = L8W8JWT_DECODE_FAILED_INVALID_TOKEN_FORMAT;
                        goto exit;
                    }
                }

                break;
            }
            default:
            {
                r = L8W8JWT_DECODE_FAILED_INVALID_TOKEN_FORMAT;
                goto exit;
            }
        }

        int ur = l8w8jwt_unescape_claim(&claim, json + key.start, (size_t)key.end - key.start, json + value.start, (size_t)value.end - value.start);
        if (ur != L8W8JWT_SUCCESS)
        {
            r = ur;
            goto exit;
        }

        chillbuff_push_back(buffer, &claim, 1);
    }

    r = L8W8JWT_SUCCESS;
exit:
    if (tokens != _tokens)
    {
        l8w8jwt_free(tokens);
    }
    return r;
}

static void l8w8jwt_validate_claims(const struct l8w8jwt_decoding_params* params, const chillbuff* claims, enum l8w8jwt_validation_result* out_validation_result)
{
    size_t validation_length;

    if (params->validate_sub != NULL)
    {
        struct l8w8jwt_claim* c = l8w8jwt_get_claim(claims->array, claims->length, "sub", 3);

        validation_length = params->validate_sub_length ? params->validate_sub_length : strlen(params->validate_sub);

        if (c == NULL || c->value_length != validation_length || strncmp(c->value, params->validate_sub, validation_length) != 0)
        {
            *out_validation_result |= (unsigned)L8W8JWT_SUB_FAILURE;
        }
    }

    if (params->validate_aud != NULL)
    {
        struct l8w8jwt_claim* c = l8w8jwt_get_claim(claims->array, claims->length, "aud", 3);

        validation_length = params->validate_aud_length ? params->validate_aud_length : strlen(params->validate_aud);

        if (c == NULL || c->value_length != validation_length || strncmp(c->value, params->validate_aud, validation_length) != 0)
        {
            *out_validation_result |= (unsigned)L8W8JWT_AUD_FAILURE;
        }
    }

    if (params->validate_iss != NULL)
    {
        struct l8w8jwt_claim* c = l8w8jwt_get_claim(claims->array, claims->length, "iss", 3);

        validation_length = params->validate_iss_length ? params->validate_iss_length : strlen(params->validate_iss);

        if (c == NULL || c->value_length != validation_length || strncmp(c->value, params->validate_iss, validation_length) != 0)
        {
            *out_validation_result |= (unsigned)L8W8JWT_ISS_FAILURE;
        }
    }

    if (params->validate_jti != NULL)
    {
        struct l8w8jwt_claim* c = l8w8jwt_get_claim(claims->array, claims->length, "jti", 3);

        validation_length = params->validate_jti_length ? params->validate_jti_length : strlen(params->validate_jti);

        if (c == NULL || c->value_length != validation_length || strncmp(c->value, params->validate_jti, validation_length) != 0)
        {
            *out_validation_result |= (unsigned)L8W8JWT_JTI_FAILURE;
        }
    }

    const l8w8jwt_time_t ct = l8w8jwt_time(NULL);

    if (params->validate_exp)
    {
        struct l8w8jwt_claim* c = l8w8jwt_get_claim(claims->array, claims->length, "exp", 3);
        if (c == NULL || ct - params->exp_tolerance_seconds > strtoll(c->value, NULL, 10))
        {
            *out_validation_result |= (unsigned)L8W8JWT_EXP_FAILURE;
        }
    }

    if (params->validate_nbf)
    {
        struct l8w8jwt_claim* c = l8w8jwt_get_claim(claims->array, claims->length, "nbf", 3);
        if (c == NULL || ct + params->nbf_tolerance_seconds < strtoll(c->value, NULL, 10))
        {
            *out_validation_result |= (unsigned)L8W8JWT_NBF_FAILURE;
        }
    }

    if (params->validate_iat)
    {
        struct l8w8jwt_claim* c = l8w8jwt_get_claim(claims->array, claims->length, "iat", 3);
        if (c == NULL || ct + params->iat_tolerance_seconds < strtoll(c->value, NULL, 10))
        {
            *out_validation_result |= (unsigned)L8W8JWT_IAT_FAILURE;
        }
    }

    if (params->validate_typ)
    {
        struct l8w8jwt_claim* c = l8w8jwt_get_claim(claims->array, claims->length, "typ", 3);
        if (c == NULL || l8w8jwt_strncmpic(c->value, params->validate_typ, params->validate_typ_length) != 0)
        {
            *out_validation_result |= (unsigned)L8W8JWT_TYP_FAILURE;
        }
    }
}

static int l8w8jwt_verify_signature(const struct l8w8jwt_decoding_params* params, enum l8w8jwt_validation_result* out_validation_res, const uint8_t* signature, const size_t signature_length)
{
    int r = L8W8JWT_SUCCESS;

    const int alg = params->alg;

    if (alg == -1 || signature == NULL || signature_length == 0)
    {
        return r;
    }

    int is_cert = 0; // If the validation PEM is a X.509 certificate, this will be set to 1.

    mbedtls_pk_context pk;
    mbedtls_pk_init(&pk);

    mbedtls_x509_crt crt;
    mbedtls_x509_crt_init(&crt);

#if L8W8JWT_SMALL_STACK
    unsigned char* key = l8w8jwt_calloc(sizeof(unsigned char), L8W8JWT_MAX_KEY_SIZE);
    if (key == NULL)
    {
        r = L8W8JWT_OUT_OF_MEM;
        goto exit;
    }
#else
    unsigned char key[L8W8JWT_MAX_KEY_SIZE] = { 0x00 };
#endif

    size_t key_length = params->verification_key_length;
    memcpy(key, params->verification_key, key_length);

    key_length += key[key_length - 1] != '\0';

    is_cert = strstr((const char*)key, "-----BEGIN CERTIFICATE-----") != NULL;
    if (is_cert)
    {
        r = mbedtls_x509_crt_parse(&crt, key, key_length);
        if (r != 0)
        {
            r = L8W8JWT_KEY_PARSE_FAILURE;
            goto exit;
        }

        pk = crt.pk;
    }

    size_t md_length = 0;
    mbedtls_md_type_t md_type = MBEDTLS_MD_NONE;
    mbedtls_md_info_t* md_info = NULL;

    md_info_from_alg(alg, &md_info, &md_type, &md_length);

    unsigned char hash[64] = { 0x00 };

    char* signature_segment = strchr(params->jwt, '.');

    if (signature_segment == NULL) /* No payload. */
    {
        r = L8W8JWT_DECODE_FAILED_INVALID_TOKEN_FORMAT;
        goto exit;
    }

    signature_segment = strchr(signature_segment + 1, '.');

    if (signature_segment == NULL) /* No signature. */
    {
        r = L8W8JWT_DECODE_FAILED_INVALID_TOKEN_FORMAT;
        goto exit;
    }

    switch (alg)
    {
        case L8W8JWT_ALG_ES256:
        case L8W8JWT_ALG_ES384:
        case L8W8JWT_ALG_ES512:
        case L8W8JWT_ALG_RS256:
        case L8W8JWT_ALG_RS384:
        case L8W8JWT_ALG_RS512:
        case L8W8JWT_ALG_PS256:
        case L8W8JWT_ALG_PS384:
        case L8W8JWT_ALG_PS512:
        case L8W8JWT_ALG_ES256K: {

            r = mbedtls_md(md_info, (const unsigned char*)params->jwt, signature_segment - params->jwt, hash);
            if (r != L8W8JWT_SUCCESS)
            {
                r = L8W8JWT_SHA2_FAILURE;
                goto exit;
            }
            break;
        }
        default:
            break;
    }

    switch (alg)
    {
        case L8W8JWT_ALG_HS256:
        case L8W8JWT_ALG_HS384:
        case L8W8JWT_ALG_HS512: {

            unsigned char signature_cmp[64];
            memset(signature_cmp, '\0', sizeof(signature_cmp));

            r = mbedtls_md_hmac(md_info, key, key_length - 1, (const unsigned char*)params->jwt, signature_segment - params->jwt, signature_cmp);
            if (r != 0)
            {
                *out_validation_res |= (unsigned)L8W8JWT_SIGNATURE_VERIFICATION_FAILURE;
                break;
            }

            r = memcmp(signature, signature_cmp, 32 + (16 * alg));
            if (r != 0)
            {
                *out_validation_res |= (unsigned)L8W8JWT_SIGNATURE_VERIFICATION_FAILURE;
                break;
            }

            break;
        }
        case L8W8JWT_ALG_RS256:
        case L8W8JWT_ALG_RS384:
        case L8W8JWT_ALG_RS512: {

            if (!is_cert)
            {
                r = mbedtls_pk_parse_public_key(&pk, key, key_length);
                if (r != 0)
                {
                    r = L8W8JWT_KEY_PARSE_FAILURE;
                    goto exit;
                }
            }

            r = mbedtls_pk_verify(&pk, md_type, hash, md_length, (const unsigned char*)signature, signature_length);
            if (r != 0)
            {
                *out_validation_res |= (unsigned)L8W8JWT_SIGNATURE_VERIFICATION_FAILURE;
                break;
            }

            break;
        }
        case L8W8JWT_ALG_PS256:
        case L8W8JWT_ALG_PS384:
        case L8W8JWT_ALG_PS512: {

            if (!is_cert)
            {
                r = mbedtls_pk_parse_public_key(&pk, key, key_length);
                if (r != 0)
                {
                    r = L8W8JWT_KEY_PARSE_FAILURE;
                    goto exit;
                }
            }

            mbedtls_rsa_context* rsa = mbedtls_pk_rsa(pk);
            mbedtls_rsa_set_padding(rsa, MBEDTLS_RSA_PKCS_V21, md_type);

            r = mbedtls_rsa_rsassa_pss_verify(rsa, md_type, md_length, hash, signature);
            if (r != 0)
            {
                *out_validation_res |= (unsigned)L8W8JWT_SIGNATURE_VERIFICATION_FAILURE;
                break;
            }

            break;
        }
        case L8W8JWT_ALG_ES256:
        case L8W8JWT_ALG_ES256K:
        case L8W8JWT_ALG_ES384:
        case L8W8JWT_ALG_ES512: {

            if (!is_cert)
            {
                r = mbedtls_pk_parse_public_key(&pk, key, key_length);
                if (r != 0)
                {
                    r = L8W8JWT_KEY_PARSE_FAILURE;
                    goto exit;
                }
            }

            const size_t half_signature_length = signature_length / 2;

            mbedtls_ecdsa_context ecdsa;
            mbedtls_ecdsa_init(&ecdsa);

            mbedtls_mpi sig_r, sig_s;
            mbedtls_mpi_init(&sig_r);
            mbedtls_mpi_init(&sig_s);

            r = mbedtls_ecdsa_from_keypair(&ecdsa, mbedtls_pk_ec(pk));

            if (r != 0)
            {
                r = L8W8JWT_KEY_PARSE_FAILURE;
                mbedtls_ecdsa_free(&ecdsa);
                mbedtls_mpi_free(&sig_r);
                mbedtls_mpi_free(&sig_s);
                goto exit;
            }

            mbedtls_mpi_read_binary(&sig_r, signature, half_signature_length);
            mbedtls_mpi_read_binary(&sig_s, signature + half_signature_length, half_signature_length);

            r = mbedtls_ecdsa_verify(&ecdsa.MBEDTLS_PRIVATE(grp), hash, md_length, &ecdsa.MBEDTLS_PRIVATE(Q), &sig_r, &sig_s);
            if (r != 0)
            {
                *out_validation_res |= (unsigned)L8W8JWT_SIGNATURE_VERIFICATION_FAILURE;
            }

            mbedtls_ecdsa_free(&ecdsa);
            mbedtls_mpi_free(&sig_r);
            mbedtls_mpi_free(&sig_s);

            break;
        }
        case L8W8JWT_ALG_ED25519: {

#if L8W8JWT_ENABLE_EDDSA
            if (key_length != 64 && !(key_length == 65 && key[64] == 0x00))
            {
                r = L8W8JWT_WRONG_KEY_TYPE;
                goto exit;
            }

            unsigned char public_key[32 + 1] = { 0x00 };

            if (l8w8jwt_hexstr2bin((const char*)key, key_length, public_key, sizeof(public_key), NULL) != 0)
            {
                r = L8W8JWT_WRONG_KEY_TYPE;
                goto exit;
            }

            if (!ed25519_verify(signature, (const unsigned char*)params->jwt, signature_segment - params->jwt, public_key))
            {
                *out_validation_res |= (unsigned)L8W8JWT_SIGNATURE_VERIFICATION_FAILURE;
                break;
            }

            break;
#else
            r = L8W8JWT_UNSUPPORTED_ALG;
            goto exit;
#endif
        }
        default:
            break;
    }

    r = L8W8JWT_SUCCESS;

exit:
    mbedtls_platform_zeroize(key, L8W8JWT_MAX_KEY_SIZE);

#if L8W8JWT_SMALL_STACK
    l8w8jwt_free(key);
#endif

    if (is_cert)
    {
        mbedtls_x509_crt_free(&crt);
    }
    else
    {
        mbedtls_pk_free(&pk);
    }

    return r;
}

void l8w8jwt_decoding_params_init(struct l8w8jwt_decoding_params* params)
{
    if (params == NULL)
    {
        return;
    }
    memset(params, 0x00, sizeof(struct l8w8jwt_decoding_params));
    params->alg = -2;
}

int l8w8jwt_validate_decoding_params(struct l8w8jwt_decoding_params* params)
{
    if (params == NULL || params->jwt == NULL || params->verification_key == NULL)
    {
        return L8W8JWT_NULL_ARG;
    }

    if (params->jwt_length == 0 || params->verification_key_length == 0 || params->verification_key_length > L8W8JWT_MAX_KEY_SIZE)
    {
        return L8W8JWT_INVALID_ARG;
    }

#if !L8W8JWT_ENABLE_EDDSA
    if (params->alg == L8W8JWT_ALG_ED25519)
    {
        return L8W8JWT_UNSUPPORTED_ALG;
    }
#endif

    return L8W8JWT_SUCCESS;
}

int l8w8jwt_decode(struct l8w8jwt_decoding_params* params, enum l8w8jwt_validation_result* out_validation_result, struct l8w8jwt_claim** out_claims, size_t* out_claims_length)
{
    if (params == NULL || (out_claims != NULL && out_claims_length == NULL))
    {
        return L8W8JWT_NULL_ARG;
    }

    enum l8w8jwt_validation_result validation_res = L8W8JWT_VALID;

    int r = l8w8jwt_validate_decoding_params(params);
    if (r != L8W8JWT_SUCCESS)
    {
        return r;
    }

    if (out_validation_result == NULL)
    {
        return L8W8JWT_NULL_ARG;
    }

    *out_validation_result = ~L8W8JWT_VALID;

    char* header = NULL;
    size_t header_length = 0;

    char* payload = NULL;
    size_t payload_length = 0;

    uint8_t* signature = NULL;
    size_t signature_length = 0;

    chillbuff claims;
    r = chillbuff_init(&claims, 16, sizeof(struct l8w8jwt_claim), CHILLBUFF_GROW_DUPLICATIVE);
    if (r != CHILLBUFF_SUCCESS)
    {
        r = L8W8JWT_OUT_OF_MEM;
        goto exit;
    }

    r = l8w8jwt_decode_segments(params, (uint8_t**)&header, &header_length, (uint8_t**)&payload, &payload_length, (uint8_t**)&signature, &signature_length);
    if (r != L8W8JWT_SUCCESS)
    {
        goto exit;
    }

    r = l8w8jwt_verify_signature(params, &validation_res, signature, signature_length);
    if (r != L8W8JWT_SUCCESS)
    {
        goto exit;
    }

    r = l8w8jwt_parse_claims(&claims, header, header_length);
    if (r != L8W8JWT_SUCCESS)
    {
        r = L8W8JWT_DECODE_FAILED_INVALID_TOKEN_FORMAT;
        goto exit;
    }

    r = l8w8jwt_parse_claims(&claims, payload, payload_length);
    if (r != L8W8JWT_SUCCESS)
    {
        r = L8W8JWT_DECODE_FAILED_INVALID_TOKEN_FORMAT;
        goto exit;
    }

    l8w8jwt_validate_claims(params, &claims, &validation_res);

    r = L8W8JWT_SUCCESS;
    *out_validation_result = validation_res;

    if (out_claims != NULL && out_claims_length != NULL)
    {
        *out_claims_length = claims.length;
        *out_claims = (struct l8w8jwt_claim*)claims.array;
    }

exit:
    l8w8jwt_free(header);
    l8w8jwt_free(payload);
    l8w8jwt_free(signature);

    if (out_claims == NULL || r != L8W8JWT_SUCCESS)
    {
        l8w8jwt_free_claims((struct l8w8jwt_claim*)claims.array, claims.length);
    }

    return r;
}

int l8w8jwt_decode_raw(struct l8w8jwt_decoding_params* params, enum l8w8jwt_validation_result* out_validation_result, char** out_header, size_t* out_header_length, char** out_payload, size_t* out_payload_length, uint8_t** out_signature, size_t* out_signature_length)
{
    if
    (
            params == NULL
            ||
            out_validation_result == NULL
            ||
            (out_header != NULL && out_header_length == NULL)
            ||
            (out_payload != NULL && out_payload_length == NULL)
            ||
            (out_signature != NULL && out_signature_length == NULL)
    )
    {
        return L8W8JWT_NULL_ARG;
    }

    enum l8w8jwt_validation_result validation_res = L8W8JWT_VALID;

    int r = l8w8jwt_validate_decoding_params(params);
    if (r != L8W8JWT_SUCCESS)
    {
        return r;
    }

    *out_validation_result = ~L8W8JWT_VALID;

    char* header = NULL;
    size_t header_length = 0;

    char* payload = NULL;
    size_t payload_length = 0;

    uint8_t* signature = NULL;
    size_t signature_length = 0;

    chillbuff claims;
    r = chillbuff_init(&claims, 16, sizeof(struct l8w8jwt_claim), CHILLBUFF_GROW_DUPLICATIVE);
    if (r != CHILLBUFF_SUCCESS)
    {
        r = L8W8JWT_OUT_OF_MEM;
        goto exit;
    }

    r = l8w8jwt_decode_segments(params, (uint8_t**)&header, &header_length, (uint8_t**)&payload, &payload_length, (uint8_t**)&signature, &signature_length);
    if (r != L8W8JWT_SUCCESS)
    {
        goto exit;
    }

    r = l8w8jwt_verify_signature(params, &validation_res, signature, signature_length);
    if (r != L8W8JWT_SUCCESS)
    {
        goto exit;
    }

    r = l8w8jwt_parse_claims(&claims, header, header_length);
    if (r != L8W8JWT_SUCCESS)
    {
        r = L8W8JWT_DECODE_FAILED_INVALID_TOKEN_FORMAT;
        goto exit;
    }

    r = l8w8jwt_parse_claims(&claims, payload, payload_length);
    if (r != L8W8JWT_SUCCESS)
    {
        r = L8W8JWT_DECODE_FAILED_INVALID_TOKEN_FORMAT;
        goto exit;
    }

    l8w8jwt_validate_claims(params, &claims, &validation_res);

    r = L8W8JWT_SUCCESS;
    *out_validation_result = validation_res;

exit:
    if (out_header != NULL)
    {
        *out_header = header;
        *out_header_length = header_length;
    }
    else
    {
        l8w8jwt_free(header);
    }

    if (out_payload != NULL)
    {
        *out_payload = payload;
        *out_payload_length = payload_length;
    }
    else
    {
        l8w8jwt_free(payload);
    }

    if (out_signature != NULL)
    {
        *out_signature = signature;
        *out_signature_length = signature_length;
    }
    else
    {
        l8w8jwt_free(signature);
    }

    l8w8jwt_free_claims((struct l8w8jwt_claim*)claims.array, claims.length);

    return r;
}

int l8w8jwt_decode_raw_no_validation(struct l8w8jwt_decoding_params* params, char** out_header, size_t* out_header_length, char** out_payload, size_t* out_payload_length, uint8_t** out_signature, size_t* out_signature_length)
{
    if
        (
            params == NULL
            ||
            (out_header == NULL && out_payload == NULL && out_signature == NULL)
            ||
            (out_header != NULL && out_header_length == NULL)
            ||
            (out_payload != NULL && out_payload_length == NULL)
            ||
            (out_signature != NULL && out_signature_length == NULL)
        )
    {
        return L8W8JWT_NULL_ARG;
    }

    int r = l8w8jwt_validate_decoding_params(params);
    if (r != L8W8JWT_SUCCESS)
    {
        return r;
    }

    char* header = NULL;
    size_t header_length = 0;

    char* payload = NULL;
    size_t payload_length = 0;

    uint8_t* signature = NULL;
    size_t signature_length = 0;

    r = l8w8jwt_decode_segments(params, (uint8_t**)&header, &header_length, (uint8_t**)&payload, &payload_length, (uint8_t**)&signature, &signature_length);
    if (r != L8W8JWT_SUCCESS)
    {
        goto exit;
    }

    r = L8W8JWT_SUCCESS;

exit:
    if (out_header != NULL)
    {
        *out_header = header;
        *out_header_length = header_length;
    }
    else
    {
        l8w8jwt_free(header);
    }

    if (out_payload != NULL)
    {
        *out_payload = payload;
        *out_payload_length = payload_length;
    }
    else
    {
        l8w8jwt_free(payload);
    }

    if (out_signature != NULL)
    {
        *out_signature = signature;
        *out_signature_length = signature_length;
    }
    else
    {
        l8w8jwt_free(signature);
    }

    return r;
}
"#

/-- include/l8w8jwt/encode.h -/
def encode_h : String := r#"
#define L8W8JWT_MAX_KEY_SIZE 8192
#endif 
L8W8JWT_API struct l8w8jwt_encoding_params
{
    int alg;
    char* iss;
    size_t iss_length;
    char* sub;
    size_t sub_length;
    char* aud;
    size_t aud_length;
    char* jti;
    size_t jti_length;
    l8w8jwt_time_t exp;
    l8w8jwt_time_t nbf;
    l8w8jwt_time_t iat;
    struct l8w8jwt_claim* additional_header_claims;
    size_t additional_header_claims_count;
    struct l8w8jwt_claim* additional_payload_claims;
    size_t additional_payload_claims_count;
    unsigned char* secret_key;
    size_t secret_key_length;
    unsigned char* secret_key_pw;
    size_t secret_key_pw_length;
    char** out;
    size_t* out_length;
};
L8W8JWT_API void l8w8jwt_encoding_params_init(struct l8w8jwt_encoding_params* params);
L8W8JWT_API int l8w8jwt_validate_encoding_params(struct l8w8jwt_encoding_params* params);
L8W8JWT_API int l8w8jwt_encode(struct l8w8jwt_encoding_params* params);

"#

/-- src/encode.c:37-681 -/
def encode_c : String := r#"
static inline void md_info_from_alg(const int alg, mbedtls_md_info_t** md_info, mbedtls_md_type_t* md_type, size_t* md_length)
{
    switch (alg)
    {
        case L8W8JWT_ALG_HS256:
        case L8W8JWT_ALG_RS256:
        case L8W8JWT_ALG_PS256:
        case L8W8JWT_ALG_ES256:
        case L8W8JWT_ALG_ES256K:
            *md_length = 32;
            *md_type = MBEDTLS_MD_SHA256;
            *md_info = (mbedtls_md_info_t*)mbedtls_md_info_from_type(MBEDTLS_MD_SHA256);
            break;

        case L8W8JWT_ALG_HS384:
        case L8W8JWT_ALG_RS384:
        case L8W8JWT_ALG_PS384:
        case L8W8JWT_ALG_ES384:
            *md_length = 48;
            *md_type = MBEDTLS_MD_SHA384;
            *md_info = (mbedtls_md_info_t*)mbedtls_md_info_from_type(MBEDTLS_MD_SHA384);
            break;

        case L8W8JWT_ALG_HS512:
        case L8W8JWT_ALG_RS512:
        case L8W8JWT_ALG_PS512:
        case L8W8JWT_ALG_ES512:
            *md_length = 64;
            *md_type = MBEDTLS_MD_SHA512;
            *md_info = (mbedtls_md_info_t*)mbedtls_md_info_from_type(MBEDTLS_MD_SHA512);
            break;

        default:
            break;
    }
}

/* Step 1: prepare the token by encoding header + payload claims into a stringbuilder, ready to be signed! */
static int write_header_and_payload(chillbuff* stringbuilder, struct l8w8jwt_encoding_params* params)
{
    int r;
    chillbuff buff;

    r = chillbuff_init(&buff, 256, sizeof(char), CHILLBUFF_GROW_DUPLICATIVE);
    if (r != CHILLBUFF_SUCCESS)
    {
        return L8W8JWT_OUT_OF_MEM;
    }

    switch (params->alg)
    {
        case L8W8JWT_ALG_HS256:
            chillbuff_push_back(&buff, "{\"alg\":\"HS256\",\"typ\":\"JWT\"", 26);
            break;
        case L8W8JWT_ALG_HS384:
            chillbuff_push_back(&buff, "{\"alg\":\"HS384\",\"typ\":\"JWT\"", 26);
            break;
        case L8W8JWT_ALG_HS512:
            chillbuff_push_back(&buff, "{\"alg\":\"HS512\",\"typ\":\"JWT\"", 26);
            break;
        case L8W8JWT_ALG_RS256:
            chillbuff_push_back(&buff, "{\"alg\":\"RS256\",\"typ\":\"JWT\"", 26);
            break;
        case L8W8JWT_ALG_RS384:
            chillbuff_push_back(&buff, "{\"alg\":\"RS384\",\"typ\":\"JWT\"", 26);
            break;
        case L8W8JWT_ALG_RS512:
            chillbuff_push_back(&buff, "{\"alg\":\"RS512\",\"typ\":\"JWT\"", 26);
            break;
        case L8W8JWT_ALG_PS256:
            chillbuff_push_back(&buff, "{\"alg\":\"PS256\",\"typ\":\"JWT\"", 26);
            break;
        case L8W8JWT_ALG_PS384:
            chillbuff_push_back(&buff, "{\"alg\":\"PS384\",\"typ\":\"JWT\"", 26);
            break;
        case L8W8JWT_ALG_PS512:
            chillbuff_push_back(&buff, "{\"alg\":\"PS512\",\"typ\":\"JWT\"", 26);
            break;
        case L8W8JWT_ALG_ES256:
            chillbuff_push_back(&buff, "{\"alg\":\"ES256\",\"typ\":\"JWT\"", 26);
            break;
        case L8W8JWT_ALG_ES384:
            chillbuff_push_back(&buff, "{\"alg\":\"ES384\",\"typ\":\"JWT\"", 26);
            break;
        case L8W8JWT_ALG_ES512:
            chillbuff_push_back(&buff, "{\"alg\":\"ES512\",\"typ\":\"JWT\"", 26);
            break;
        case L8W8JWT_ALG_ES256K:
            chillbuff_push_back(&buff, "{\"alg\":\"ES256K\",\"typ\":\"JWT\",\"kty\":\"EC\",\"crv\":\"secp256k1\"", 56);
            break;
        case L8W8JWT_ALG_ED25519:
            chillbuff_push_back(&buff, "{\"alg\":\"EdDSA\",\"typ\":\"JWT\",\"kty\":\"EC\",\"crv\":\"Ed25519\"", 53);
            break;
        default:
            chillbuff_free(&buff);
            return L8W8JWT_INVALID_ARG;
    }

    if (params->additional_header_claims_count > 0)
    {
        chillbuff_push_back(&buff, ",", 1);
        l8w8jwt_write_claims(&buff, params->additional_header_claims, params->additional_header_claims_count);
    }

    chillbuff_push_back(&buff, "}", 1);

    char* segment;
    size_t segment_length;

    r = l8w8jwt_base64_encode(1, buff.array, buff.length, &segment, &segment_length);
    if (r != L8W8JWT_SUCCESS)
    {
        chillbuff_free(&buff);
        return r;
    }

    chillbuff_push_back(stringbuilder, segment, segment_length);

    chillbuff_clear(&buff);

    l8w8jwt_free(segment);
    segment = NULL;

    char iatnbfexp[64] = { 0x00 };

    if (params->iat)
    {
        snprintf(iatnbfexp + 00, 21, "%" PRIu64 "", (uint64_t)params->iat);
    }

    if (params->nbf)
    {
        snprintf(iatnbfexp + 21, 21, "%" PRIu64 "", (uint64_t)params->nbf);
    }

    if (params->exp)
    {
        snprintf(iatnbfexp + 42, 21, "%" PRIu64 "", (uint64_t)params->exp);
    }

    struct l8w8jwt_claim claims[] = {
        // Setting l8w8jwt_claim::value_length to 0 makes the encoder use strlen, which in this case is fine.
        { .key = *(iatnbfexp + 00) ? "iat" : NULL, .key_length = 3, .value = iatnbfexp + 00, .value_length = 0, .type = L8W8JWT_CLAIM_TYPE_INTEGER },
        { .key = *(iatnbfexp + 21) ? "nbf" : NULL, .key_length = 3, .value = iatnbfexp + 21, .value_length = 0, .type = L8W8JWT_CLAIM_TYPE_INTEGER },
        { .key = *(iatnbfexp + 42) ? "exp" : NULL, .key_length = 3, .value = iatnbfexp + 42, .value_length = 0, .type = L8W8JWT_CLAIM_TYPE_INTEGER },
        { .key = params->sub ? "sub" : NULL, .key_length = 3, .value = params->sub, .value_length = params->sub_length, .type = L8W8JWT_CLAIM_TYPE_STRING },
        { .key = params->iss ? "iss" : NULL, .key_length = 3, .value = params->iss, .value_length = params->iss_length, .type = L8W8JWT_CLAIM_TYPE_STRING },
        { .key = params->aud ? "aud" : NULL, .key_length = 3, .value = params->aud, .value_length = params->aud_length, .type = L8W8JWT_CLAIM_TYPE_STRING },
        { .key = params->jti ? "jti" : NULL, .key_length = 3, .value = params->jti, .value_length = params->jti_length, .type = L8W8JWT_CLAIM_TYPE_STRING },
    };

    chillbuff_push_back(&buff, "{", 1);

    l8w8jwt_write_claims(&buff, claims, sizeof(claims) / sizeof(struct l8w8jwt_claim));

    if (params->additional_payload_claims_count > 0)
    {
        if (params->iat || params->exp || params->nbf || params->iss_length || params->sub_length || params->jti_length || params->aud_length)
            chillbuff_push_back(&buff, ",", 1);

        l8w8jwt_write_claims(&buff, params->additional_payload_claims, params->additional_payload_claims_count);
    }

    chillbuff_push_back(&buff, "}", 1);

    r = l8w8jwt_base64_encode(1, buff.array, buff.length, &segment, &segment_length);
    if (r != L8W8JWT_SUCCESS)
    {
        chillbuff_free(&buff);
        return r;
    }

    chillbuff_push_back(stringbuilder, ".", 1);
    chillbuff_push_back(stringbuilder, segment, segment_length);

    l8w8jwt_free(segment);
    chillbuff_free(&buff);

    return L8W8JWT_SUCCESS;
}

/* Step 2: call write_header_and_payload before you call this! */
static int write_signature(chillbuff* stringbuilder, struct l8w8jwt_encoding_params* params)
{
    int r;
    const int alg = params->alg;

    char* signature = NULL;
    size_t signature_length = 0, signature_bytes_length = 0, key_length = 0;

    mbedtls_pk_context pk;
    mbedtls_entropy_context entropy;
    mbedtls_ctr_drbg_context ctr_drbg;

    mbedtls_pk_init(&pk);
    mbedtls_entropy_init(&entropy);
    mbedtls_ctr_drbg_init(&ctr_drbg);

#if L8W8JWT_SMALL_STACK
    unsigned char* signature_bytes = l8w8jwt_calloc(sizeof(unsigned char), 4096);
    unsigned char* key = l8w8jwt_calloc(sizeof(unsigned char), L8W8JWT_MAX_KEY_SIZE);

    if (signature_bytes == NULL || key == NULL)
    {
        r = L8W8JWT_OUT_OF_MEM;
        goto exit;
    }
#else
    unsigned char signature_bytes[4096] = { 0x00 };
    unsigned char key[L8W8JWT_MAX_KEY_SIZE] = { 0x00 };
#endif

    key_length = params->secret_key_length;
    memcpy(key, params->secret_key, key_length);

    /*
     * MbedTLS requires the NUL-terminator to be included
     * in the PEM-formatted key string passed to the key parse function.
     * HMAC-key variants should subtract 1 from key_length again to compensate.
     */
    key_length += key[key_length - 1] != '\0';

    r = mbedtls_ctr_drbg_seed(&ctr_drbg, mbedtls_entropy_func, &entropy, (const unsigned char*)"l8w8jwt_mbedtls_pers.!#@", 24);
    if (r != 0)
    {
        r = L8W8JWT_MBEDTLS_CTR_DRBG_SEED_FAILURE;
        goto exit;
    }

    size_t md_length = 0;
    mbedtls_md_type_t md_type = MBEDTLS_MD_NONE;
    mbedtls_md_info_t* md_info = NULL;

    md_info_from_alg(alg, &md_info, &md_type, &md_length);

    unsigned char hash[64] = { 0x00 };

    switch (alg)
    {
        case L8W8JWT_ALG_HS256:
        case L8W8JWT_ALG_HS384:
        case L8W8JWT_ALG_HS512: {

            /*
             * "key_length - 1" because the MbedTLS implementation of HMAC
             * does not require its key string to include the NUL-terminator,
             * unlike the RSA/ECC PEM key parse function "mbedtls_pk_parse_key",
             * which MUST include the '\0' in the PEM-formatted key string.
             */
            r = mbedtls_md_hmac(md_info, key, key_length - 1, (const unsigned char*)stringbuilder->array, stringbuilder->length, signature_bytes);
            if (r != 0)
            {
                r = L8W8JWT_SIGNATURE_CREATION_FAILURE;
                goto exit;
            }

            signature_bytes_length = 32 + (16 * params->alg);
            break;
        }
        case L8W8JWT_ALG_RS256:
        case L8W8JWT_ALG_RS384:
        case L8W8JWT_ALG_RS512: {

            /* Parse & load the key string into the mbedtls pk instance. */

            r = mbedtls_pk_parse_key(&pk, key, key_length, params->secret_key_pw, params->secret_key_pw_length, mbedtls_ctr_drbg_random, &ctr_drbg);
            if (r != 0)
            {
                r = L8W8JWT_KEY_PARSE_FAILURE;
                goto exit;
            }

            /* Ensure RSA functionality. */
            if (!mbedtls_pk_can_do(&pk, MBEDTLS_PK_RSA) && !mbedtls_pk_can_do(&pk, MBEDTLS_PK_RSA_ALT))
            {
                r = L8W8JWT_WRONG_KEY_TYPE;
                goto exit;
            }

            /* Weak RSA keys are forbidden! */
            if (mbedtls_pk_get_bitlen(&pk) < 2048)
            {
                r = L8W8JWT_WRONG_KEY_TYPE;
                goto exit;
            }

            /* Hash the JWT header + payload. */
            r = mbedtls_md(md_info, (const unsigned char*)stringbuilder->array, stringbuilder->length, hash);
            if (r != L8W8JWT_SUCCESS)
            {
                r = L8W8JWT_SHA2_FAILURE;
                goto exit;
            }

            /* Sign the hash using the provided private key. */
            r = mbedtls_pk_sign(&pk, md_type, hash, md_length, signature_bytes, 4096, &signature_bytes_length, mbedtls_ctr_drbg_random, &ctr_drbg);
            if (r != L8W8JWT_SUCCESS)
            {
                r = L8W8JWT_SIGNATURE_CREATION_FAILURE;
                goto exit;
            }

            break;
        }
        case L8W8JWT_ALG_PS256:
        case L8W8JWT_ALG_PS384:
        case L8W8JWT_ALG_PS512: {

            r = mbedtls_pk_parse_key(&pk, key, key_length, params->secret_key_pw, params->secret_key_pw_length, mbedtls_ctr_drbg_random, &ctr_drbg);
            if (r != 0)
            {
                r = L8W8JWT_KEY_PARSE_FAILURE;
                goto exit;
            }

            if (!mbedtls_pk_can_do(&pk, MBEDTLS_PK_RSASSA_PSS))
            {
                r = L8W8JWT_WRONG_KEY_TYPE;
                goto exit;
            }

            if (mbedtls_pk_get_bitlen(&pk) < 2048)
            {
                r = L8W8JWT_WRONG_KEY_TYPE;
                goto exit;
            }

            r = mbedtls_md(md_info, (const unsigned char*)stringbuilder->array, stringbuilder->length, hash);
            if (r != L8W8JWT_SUCCESS)
            {
                r = L8W8JWT_SHA2_FAILURE;
                goto exit;
            }

            mbedtls_rsa_context* rsa = mbedtls_pk_rsa(pk);
            mbedtls_rsa_set_padding(rsa, MBEDTLS_RSA_PKCS_V21, md_type);

            r = mbedtls_rsa_rsassa_pss_sign(rsa, mbedtls_ctr_drbg_random, &ctr_drbg, md_type, (unsigned int)md_length, hash, signature_bytes);
            if (r != 0)
            {
                r = L8W8JWT_SIGNATURE_CREATION_FAILURE;
                goto exit;
            }

            signature_bytes_length = mbedtls_pk_get_bitlen(&pk) / 8;
            break;
        }
        case L8W8JWT_ALG_ES256:
        case L8W8JWT_ALG_ES384:
        case L8W8JWT_ALG_ES512:
        case L8W8JWT_ALG_ES256K: {

            mbedtls_ecdsa_context ecdsa;
            mbedtls_ecdsa_init(&ecdsa);

            mbedtls_mpi sig_r, sig_s;
            mbedtls_mpi_init(&sig_r);
            mbedtls_mpi_init(&sig_s);

            r = mbedtls_pk_parse_key(&pk, key, key_length, params->secret_key_pw, params->secret_key_pw_length, mbedtls_ctr_drbg_random, &ctr_drbg);
            if (r != 0)
            {
                r = L8W8JWT_KEY_PARSE_FAILURE;
                goto ecdsa_exit;
            }

            if (!mbedtls_pk_can_do(&pk, MBEDTLS_PK_ECDSA))
            {
                r = L8W8JWT_WRONG_KEY_TYPE;
                goto ecdsa_exit;
            }

            r = mbedtls_ecdsa_from_keypair(&ecdsa, mbedtls_pk_ec(pk));
            if (r != 0)
            {
                r = L8W8JWT_KEY_PARSE_FAILURE;
                goto ecdsa_exit;
            }

            r = mbedtls_md(md_info, (const unsigned char*)stringbuilder->array, stringbuilder->length, hash);
            if (r != L8W8JWT_SUCCESS)
            {
                r = L8W8JWT_SHA2_FAILURE;
                goto ecdsa_exit;
            }

            r = 0;
            switch (alg)
            {
                case L8W8JWT_ALG_ES256: {

                    if (ecdsa.MBEDTLS_PRIVATE(grp).id != MBEDTLS_ECP_DP_SECP256R1)
                    {
                        r = L8W8JWT_WRONG_KEY_TYPE;
                        goto ecdsa_exit;
                    }

                    signature_bytes_length = 64;
                    r = mbedtls_pk_get_bitlen(&pk) == 256;
                    break;
                }
                case L8W8JWT_ALG_ES256K: {

                    if (ecdsa.MBEDTLS_PRIVATE(grp).id != MBEDTLS_ECP_DP_SECP256K1)
                    {
                        r = L8W8JWT_WRONG_KEY_TYPE;
                        goto ecdsa_exit;
                    }

                    signature_bytes_length = 64;
                    r = mbedtls_pk_get_bitlen(&pk) == 256;
                    break;
                }
                case L8W8JWT_ALG_ES384: {

                    if (ecdsa.MBEDTLS_PRIVATE(grp).id != MBEDTLS_ECP_DP_SECP384R1)
                    {
                        r = L8W8JWT_WRONG_KEY_TYPE;
                        goto ecdsa_exit;
                    }

                    signature_bytes_length = 96;
                    r = mbedtls_pk_get_bitlen(&pk) == 384;
                    break;
                }
                case L8W8JWT_ALG_ES512: {

                    if (ecdsa.MBEDTLS_PRIVATE(grp).id != MBEDTLS_ECP_DP_SECP521R1)
                    {
                        r = L8W8JWT_WRONG_KEY_TYPE;
                        goto ecdsa_exit;
                    }

                    signature_bytes_length = 132;
                    r = mbedtls_pk_get_bitlen(&pk) == 521;
                    break;
                }
                default:
                    break;
            }

            /*
             * Ensure that the passed elliptic-curve cryptography key
             * has a size that is valid and compatible with the selected JWT alg.
             */
            if (r == 0)
            {
                r = L8W8JWT_WRONG_KEY_TYPE;
                goto ecdsa_exit;
            }

            r = mbedtls_ecdsa_sign(&ecdsa.MBEDTLS_PRIVATE(grp), &sig_r, &sig_s, &ecdsa.MBEDTLS_PRIVATE(d), hash, md_length, mbedtls_ctr_drbg_random, &ctr_drbg);
            if (r != 0)
            {
                r = L8W8JWT_SIGNATURE_CREATION_FAILURE;
                goto ecdsa_exit;
            }

            const size_t half_signature_bytes_length = signature_bytes_length / 2;

            r = mbedtls_mpi_write_binary(&sig_r, signature_bytes, half_signature_bytes_length);
            if (r != 0)
            {
                r = L8W8JWT_SIGNATURE_CREATION_FAILURE;
                goto ecdsa_exit;
            }

            r = mbedtls_mpi_write_binary(&sig_s, signature_bytes + half_signature_bytes_length, half_signature_bytes_length);
            if (r != 0)
            {
                r = L8W8JWT_SIGNATURE_CREATION_FAILURE;
                goto ecdsa_exit;
            }

            r = L8W8JWT_SUCCESS;

        ecdsa_exit:
            mbedtls_mpi_free(&sig_r);
            mbedtls_mpi_free(&sig_s);
            mbedtls_ecdsa_free(&ecdsa);
            if (r != L8W8JWT_SUCCESS)
            {
                goto exit;
            }
            break;
        }
        case L8W8JWT_ALG_ED25519: {

#if L8W8JWT_ENABLE_EDDSA
            if (params->secret_key_length != 128 && !(params->secret_key_length == 129 && params->secret_key[128] == 0x00))
            {
                r = L8W8JWT_WRONG_KEY_TYPE;
                goto exit;
            }

            unsigned char private_key_ref10[64 + 1] = { 0x00 };

            if (l8w8jwt_hexstr2bin((const char*)params->secret_key, params->secret_key_length, private_key_ref10, sizeof(private_key_ref10), NULL) != 0)
            {
                r = L8W8JWT_WRONG_KEY_TYPE;
                goto exit;
            }

            ed25519_sign_ref10(signature_bytes, (const unsigned char*)stringbuilder->array, stringbuilder->length, private_key_ref10);
            signature_bytes_length = 64;

            mbedtls_platform_zeroize(private_key_ref10, sizeof(private_key_ref10));
            break;
#else
            r = L8W8JWT_UNSUPPORTED_ALG;
            goto exit;
#endif
        }
        default: {
            r = L8W8JWT_INVALID_ARG;
            goto exit;
        }
    }

    if (signature_bytes_length == 0)
    {
        r = L8W8JWT_SIGNATURE_CREATION_FAILURE;
        goto exit;
    }

    /*
     * If this succeeds, it mallocs "signature" (using l8w8jwt_malloc) and assigns the resulting string length to "signature_length".
     */
    r = l8w8jwt_base64_encode(1, (uint8_t*)signature_bytes, signature_bytes_length, &signature, &signature_length);
    if (r != L8W8JWT_SUCCESS)
    {
        r = L8W8JWT_BASE64_FAILURE;
        goto exit;
    }

    chillbuff_push_back(stringbuilder, ".", 1);
    chillbuff_push_back(stringbuilder, signature, signature_length);

exit:
    mbedtls_platform_zeroize(key, L8W8JWT_MAX_KEY_SIZE);
    mbedtls_ctr_drbg_free(&ctr_drbg);
    mbedtls_entropy_free(&entropy);
    mbedtls_pk_free(&pk);
    l8w8jwt_free(signature);
#if L8W8JWT_SMALL_STACK
    l8w8jwt_free(key);
    l8w8jwt_free(signature_bytes);
#endif

    return r;
}

/* Step 3: finalize the token by writing it into the "out" string defined in the l8w8jwt_encoding_params argument. */
static int write_token(chillbuff* stringbuilder, struct l8w8jwt_encoding_params* params)
{
    *(params->out) = l8w8jwt_malloc(stringbuilder->length + 1);
    if (*(params->out) == NULL)
    {
        return L8W8JWT_OUT_OF_MEM;
    }

    *(params->out_length) = stringbuilder->length;
    (*(params->out))[stringbuilder->length] = '\0';
    memcpy(*(params->out), stringbuilder->array, stringbuilder->length);

    return L8W8JWT_SUCCESS;
}

void l8w8jwt_encoding_params_init(struct l8w8jwt_encoding_params* params)
{
    if (params == NULL)
    {
        return;
    }
    memset(params, 0x00, sizeof(struct l8w8jwt_encoding_params));
    params->alg = -2;
}

int l8w8jwt_validate_encoding_params(struct l8w8jwt_encoding_params* params)
{
    if (params == NULL || params->secret_key == NULL || params->out == NULL || params->out_length == NULL)
    {
        return L8W8JWT_NULL_ARG;
    }

    if (params->secret_key_length == 0 || params->secret_key_length > L8W8JWT_MAX_KEY_SIZE)
    {
        return L8W8JWT_INVALID_ARG;
    }

    if ((params->additional_payload_claims != NULL && params->additional_payload_claims_count == 0))
    {
        return L8W8JWT_INVALID_ARG;
    }

    if ((params->additional_header_claims != NULL && params->additional_header_claims_count == 0))
    {
        return L8W8JWT_INVALID_ARG;
    }

    return L8W8JWT_SUCCESS;
}

int l8w8jwt_encode(struct l8w8jwt_encoding_params* params)
{
    int r;
    chillbuff stringbuilder;

    r = l8w8jwt_validate_encoding_params(params);
    if (r != L8W8JWT_SUCCESS)
    {
        return r;
    }

    r = chillbuff_init(&stringbuilder, 1024, sizeof(char), CHILLBUFF_GROW_DUPLICATIVE);
    if (r != CHILLBUFF_SUCCESS)
    {
        return L8W8JWT_OUT_OF_MEM;
    }

    r = write_header_and_payload(&stringbuilder, params);
    if (r != L8W8JWT_SUCCESS)
    {
        goto exit;
    }

    if (params->alg != -1)
    {
        r = write_signature(&stringbuilder, params);
        if (r != L8W8JWT_SUCCESS)
        {
            goto exit;
        }
    }

    r = write_token(&stringbuilder, params);
    if (r != L8W8JWT_SUCCESS)
    {
        goto exit;
    }

exit:
    chillbuff_free(&stringbuilder);
    return r;
}
"#

end L8w8jwt.C.Text
