"""Writes lean/Verif/C/Text.lean from /repo. With --check: says whether the file is what would be written."""
import pathlib
import re
import sys

def lines(f,a,b): 
    L=open('/repo/'+f).read().split('\n'); return '\n'.join(L[a-1:b])
def strip_doc(s):
    # headers: drop doc comments and blank lines
    s=re.sub(r'/\*.*?\*/','',s,flags=re.S)
    s=re.sub(r'//.*','',s)
    return '\n'.join(l for l in s.split('\n') if l.strip())
out=[]
o=out.append
o('''import Verif.C.Parse
/-!
# The text of /repo/src

The C text of the functions, copied from /repo by a script (lines as given, nothing changed; headers without their comments).
Declarations of library functions and types that are not in /repo are in `externs`.
-/

namespace L8w8jwt.C.Text

/-- Declarations of the library functions that /repo/src calls (C standard library; lib/ is not in /repo). Enumeration values:
jsmn.h and mbedtls/md.h as documented upstream; the model does not depend on the numbers of the latter. -/
def externs : String := r#"
#define L8W8JWT_ENABLE_EDDSA 1
#define PRIu64 "lu"
#define CHILLBUFF_SUCCESS 0
typedef long long time_t;
typedef long long l8w8jwt_time_t;
void free(void* p);
void* malloc(size_t size);
void* calloc(size_t nmemb, size_t size);
void* memset(void* s, int c, size_t n);
void* memcpy(void* d, const void* s, size_t n);
int memcmp(const void* a, const void* b, size_t n);
size_t strlen(const char* s);
char* strchr(const char* s, int c);
char* strstr(const char* s, const char* t);
int strncmp(const char* a, const char* b, size_t n);
char* strncpy(char* d, const char* s, size_t n);
long long strtoll(const char* s, char** e, int base);
int tolower(int c);
int snprintf(char* s, size_t n, const char* format, unsigned long v);
l8w8jwt_time_t l8w8jwt_time(l8w8jwt_time_t* t);
void mbedtls_platform_zeroize(void* p, size_t n);
int checknum(const char* s, size_t n);
enum chillbuff_growth_method { CHILLBUFF_GROW_LINEAR, CHILLBUFF_GROW_DUPLICATIVE };
struct chillbuff { void* array; size_t length; size_t capacity; size_t element_size; enum chillbuff_growth_method growth; };
typedef struct chillbuff chillbuff;
int chillbuff_init(chillbuff* b, size_t capacity, size_t element_size, enum chillbuff_growth_method growth);
int chillbuff_push_back(chillbuff* b, const void* elements, size_t n);
void chillbuff_clear(chillbuff* b);
void chillbuff_free(chillbuff* b);
enum jsmntype { JSMN_UNDEFINED = 0, JSMN_OBJECT = 1, JSMN_ARRAY = 2, JSMN_STRING = 4, JSMN_PRIMITIVE = 8 };
struct jsmntok { enum jsmntype type; int start; int end; int size; };
typedef struct jsmntok jsmntok_t;
struct jsmn_parser { unsigned int pos; unsigned int toknext; int toksuper; };
typedef struct jsmn_parser jsmn_parser;
void jsmn_init(jsmn_parser* p);
int jsmn_parse(jsmn_parser* p, const char* js, size_t n, jsmntok_t* tokens, unsigned int k);
"#

/-- Declarations of mbedTLS and of the ed25519 library, as far as used. The structures are those of Verif/C/Mbed.lean. Functions that
are passed as arguments are represented by their names. -/
def mbed : String := r#"
#define mbedtls_entropy_func "mbedtls_entropy_func"
#define mbedtls_ctr_drbg_random "mbedtls_ctr_drbg_random"
#define MBEDTLS_RSA_PKCS_V21 1
enum mbedtls_md_type { MBEDTLS_MD_NONE = 0, MBEDTLS_MD_SHA256 = 9, MBEDTLS_MD_SHA384 = 10, MBEDTLS_MD_SHA512 = 11 };
typedef enum mbedtls_md_type mbedtls_md_type_t;
struct mbedtls_md_info { int type; };
typedef struct mbedtls_md_info mbedtls_md_info_t;
enum mbedtls_pk_type { MBEDTLS_PK_RSA = 1, MBEDTLS_PK_ECDSA = 4, MBEDTLS_PK_RSA_ALT = 5, MBEDTLS_PK_RSASSA_PSS = 6 };
enum mbedtls_ecp_group_id { MBEDTLS_ECP_DP_SECP256R1 = 3, MBEDTLS_ECP_DP_SECP384R1 = 4, MBEDTLS_ECP_DP_SECP521R1 = 5,
  MBEDTLS_ECP_DP_SECP256K1 = 12 };
struct mbedtls_pk_context { int kind; void* key; void* pw; int padding; };
typedef struct mbedtls_pk_context mbedtls_pk_context;
typedef struct mbedtls_pk_context mbedtls_rsa_context;
typedef struct mbedtls_pk_context mbedtls_ecp_keypair;
struct mbedtls_x509_crt { mbedtls_pk_context pk; };
typedef struct mbedtls_x509_crt mbedtls_x509_crt;
struct mbedtls_entropy_context { int state; };
typedef struct mbedtls_entropy_context mbedtls_entropy_context;
struct mbedtls_ctr_drbg_context { int state; };
typedef struct mbedtls_ctr_drbg_context mbedtls_ctr_drbg_context;
struct mbedtls_mpi { int value; };
typedef struct mbedtls_mpi mbedtls_mpi;
struct mbedtls_ecp_group { int id; };
struct mbedtls_ecdsa_context { struct mbedtls_ecp_group grp; mbedtls_ecp_keypair d; mbedtls_ecp_keypair Q; };
typedef struct mbedtls_ecdsa_context mbedtls_ecdsa_context;
const mbedtls_md_info_t* mbedtls_md_info_from_type(mbedtls_md_type_t md_type);
int mbedtls_md(const mbedtls_md_info_t* md_info, const unsigned char* input, size_t ilen, unsigned char* output);
int mbedtls_md_hmac(const mbedtls_md_info_t* md_info, const unsigned char* key, size_t keylen, const unsigned char* input, size_t ilen, unsigned char* output);
void mbedtls_entropy_init(mbedtls_entropy_context* ctx);
void mbedtls_entropy_free(mbedtls_entropy_context* ctx);
void mbedtls_ctr_drbg_init(mbedtls_ctr_drbg_context* ctx);
void mbedtls_ctr_drbg_free(mbedtls_ctr_drbg_context* ctx);
int mbedtls_ctr_drbg_seed(mbedtls_ctr_drbg_context* ctx, const char* f_entropy, void* p_entropy, const unsigned char* custom, size_t len);
void mbedtls_pk_init(mbedtls_pk_context* ctx);
void mbedtls_pk_free(mbedtls_pk_context* ctx);
int mbedtls_pk_parse_key(mbedtls_pk_context* ctx, const unsigned char* key, size_t keylen, const unsigned char* pwd, size_t pwdlen, const char* f_rng, void* p_rng);
int mbedtls_pk_parse_public_key(mbedtls_pk_context* ctx, const unsigned char* key, size_t keylen);
int mbedtls_pk_can_do(const mbedtls_pk_context* ctx, int type);
size_t mbedtls_pk_get_bitlen(const mbedtls_pk_context* ctx);
int mbedtls_pk_sign(mbedtls_pk_context* ctx, mbedtls_md_type_t md_alg, const unsigned char* hash, size_t hash_len, unsigned char* sig, size_t sig_size, size_t* sig_len, const char* f_rng, void* p_rng);
int mbedtls_pk_verify(mbedtls_pk_context* ctx, mbedtls_md_type_t md_alg, const unsigned char* hash, size_t hash_len, const unsigned char* sig, size_t sig_len);
mbedtls_rsa_context* mbedtls_pk_rsa(const mbedtls_pk_context pk);
int mbedtls_rsa_set_padding(mbedtls_rsa_context* ctx, int padding, mbedtls_md_type_t hash_id);
int mbedtls_rsa_rsassa_pss_sign(mbedtls_rsa_context* ctx, const char* f_rng, void* p_rng, mbedtls_md_type_t md_alg, unsigned int hashlen, const unsigned char* hash, unsigned char* sig);
int mbedtls_rsa_rsassa_pss_verify(mbedtls_rsa_context* ctx, mbedtls_md_type_t md_alg, unsigned int hashlen, const unsigned char* hash, const unsigned char* sig);
mbedtls_ecp_keypair* mbedtls_pk_ec(const mbedtls_pk_context pk);
void mbedtls_ecdsa_init(mbedtls_ecdsa_context* ctx);
void mbedtls_ecdsa_free(mbedtls_ecdsa_context* ctx);
int mbedtls_ecdsa_from_keypair(mbedtls_ecdsa_context* ctx, const mbedtls_ecp_keypair* key);
int mbedtls_ecdsa_sign(struct mbedtls_ecp_group* grp, mbedtls_mpi* r, mbedtls_mpi* s, const mbedtls_ecp_keypair* d, const unsigned char* buf, size_t blen, const char* f_rng, void* p_rng);
int mbedtls_ecdsa_verify(struct mbedtls_ecp_group* grp, const unsigned char* buf, size_t blen, const mbedtls_ecp_keypair* Q, const mbedtls_mpi* r, const mbedtls_mpi* s);
void mbedtls_mpi_init(mbedtls_mpi* X);
void mbedtls_mpi_free(mbedtls_mpi* X);
int mbedtls_mpi_write_binary(const mbedtls_mpi* X, unsigned char* buf, size_t buflen);
int mbedtls_mpi_read_binary(mbedtls_mpi* X, const unsigned char* buf, size_t buflen);
void mbedtls_x509_crt_init(mbedtls_x509_crt* crt);
void mbedtls_x509_crt_free(mbedtls_x509_crt* crt);
int mbedtls_x509_crt_parse(mbedtls_x509_crt* chain, const unsigned char* buf, size_t buflen);
void ed25519_sign_ref10(unsigned char* signature, const unsigned char* message, size_t message_len, const unsigned char* private_key);
int ed25519_verify(const unsigned char* signature, const unsigned char* message, size_t message_len, const unsigned char* public_key);
"#
''')
def d(name,doc,text):
    assert '"#' not in text, name
    o(f'/-- {doc} -/\ndef {name} : String := r#"\n{text}\n"#\n')
hdr='\n'.join([strip_doc(lines('include/l8w8jwt/version.h',33,58)),
  strip_doc(lines('include/l8w8jwt/version.h',67,67))])
d('version_h','include/l8w8jwt/version.h: version numbers, `L8W8JWT_API`, `L8W8JWT_SMALL_STACK`, declaration of `l8w8jwt_free`.',
  strip_doc(lines('include/l8w8jwt/version.h',30,56))+'\n'+strip_doc('\n'.join(l for l in open('/repo/include/l8w8jwt/version.h').read().split('\n') if l.startswith('L8W8JWT_API'))))
d('retcodes_h','include/l8w8jwt/retcodes.h',strip_doc('\n'.join(l for l in open('/repo/include/l8w8jwt/retcodes.h').read().split('\n') if l.startswith('#define L8W8JWT_') and not l.endswith('_H'))))
d('algs_h','include/l8w8jwt/algs.h',strip_doc('\n'.join(l for l in open('/repo/include/l8w8jwt/algs.h').read().split('\n') if l.startswith('#define L8W8JWT_') and not l.endswith('_H') and 'ENABLE' not in l)))
d('claim_h','include/l8w8jwt/claim.h',strip_doc(lines('include/l8w8jwt/claim.h',33,140)))
d('util_h','include/l8w8jwt/util.h',strip_doc('\n'.join(open('/repo/include/l8w8jwt/util.h').read().split('\n')[28:]).split('#ifdef __cplusplus\n} //')[0]).replace('#ifdef __cplusplus\nextern "C" {\n#endif\n',''))
d('base64_h','include/l8w8jwt/base64.h (declarations)',strip_doc('\n'.join(l for l in open('/repo/include/l8w8jwt/base64.h').read().split('\n') if l.startswith('L8W8JWT_API'))))
d('decode_h','include/l8w8jwt/decode.h',strip_doc(lines('include/l8w8jwt/decode.h',38,500)).split('#ifdef __cplusplus')[0])
d('util_c','src/util.c:24-83',lines('src/util.c',24,83))
d('base64_c','src/base64.c:112-310',lines('src/base64.c',112,310))
d('claim_c','src/claim.c:30-188',lines('src/claim.c',30,188))
d('version_c','src/version.c:25-42',lines('src/version.c',25,42))
d('decode_c','src/decode.c:42-1045',lines('src/decode.c',42,1045))
d('encode_h','include/l8w8jwt/encode.h',strip_doc(lines('include/l8w8jwt/encode.h',38,500)).split('#ifdef __cplusplus')[0])
d('encode_c','src/encode.c:37-681',lines('src/encode.c',37,681))
o('end L8w8jwt.C.Text')
root = pathlib.Path(__file__).resolve().parent.parent / 'lean/Verif/C'
files = {'Text.lean': '\n'.join(out)+'\n'}
out.clear()
o('''import Verif.C.Text
/-!
# The text of /repo/examples

Copied from /repo by the same script (without the license at the beginning of each file; nothing else changed).
-/

namespace L8w8jwt.C.ExText

/-- Declarations of functions that the examples call in addition. The other arguments of `printf` are not converted (all of them are pointers,
`int`s, or of enumeration type). -/
def externs : String := r#"
int printf(const char* format);
struct sha512_context { int state; };
typedef struct sha512_context sha512_context;
int ed25519_create_seed(unsigned char* seed);
void ed25519_create_keypair_ref10(unsigned char* public_key, unsigned char* private_key, const unsigned char* seed);
int sha512_init(sha512_context* md);
int sha512_update(sha512_context* md, const unsigned char* in, size_t inlen);
int sha512_final(sha512_context* md, unsigned char* out);
"#
''')
for e in sorted(pathlib.Path('/repo/examples').glob('*/*.c')):
    t = e.read_text()
    d(e.parent.name+'_'+e.stem, f'examples/{e.parent.name}/{e.name}', t[t.index('#include'):].rstrip('\n'))
o('end L8w8jwt.C.ExText')
files['ExText.lean'] = '\n'.join(out)+'\n'
if '--check' in sys.argv:
    same = all(open(root/n).read() == t for n, t in files.items())
    print('same' if same else 'DIFFERENT')
    sys.exit(0 if same else 1)
for n, t in files.items():
    open(root/n, 'w').write(t)
