import Verif.C.Text
/-!
# The functions of /repo/src as terms
-/

namespace L8w8jwt.C

open Text

/-- Both src/decode.c and src/encode.c have a `static` function `md_info_from_alg`. -/
def rename : String := "
#define md_info_from_alg encode_c_md_info_from_alg
"

c_unit Src : externs ++ mbed ++ version_h ++ retcodes_h ++ algs_h ++ claim_h ++ util_h ++ base64_h ++ decode_h ++ encode_h ++
  util_c ++ base64_c ++ claim_c ++ version_c ++ decode_c ++ rename ++ encode_c

/-- Without EdDSA, which is the default (include/l8w8jwt/algs.h:100-105). -/
def noEddsa : String := "
#undef L8W8JWT_ENABLE_EDDSA
"

c_unit Src0 : externs ++ noEddsa ++ mbed ++ version_h ++ retcodes_h ++ algs_h ++ claim_h ++ util_h ++ base64_h ++ decode_h ++ encode_h ++
  util_c ++ base64_c ++ claim_c ++ version_c ++ decode_c ++ rename ++ encode_c

/-- With large buffers on the heap (src/encode.c:236, src/decode.c:483). -/
def smallStack : String := "
#define L8W8JWT_SMALL_STACK 1
"

c_unit SrcS : externs ++ smallStack ++ mbed ++ version_h ++ retcodes_h ++ algs_h ++ claim_h ++ util_h ++ base64_h ++ decode_h ++ encode_h ++
  util_c ++ base64_c ++ claim_c ++ version_c ++ decode_c ++ rename ++ encode_c

c_unit SrcS0 : externs ++ noEddsa ++ smallStack ++ mbed ++ version_h ++ retcodes_h ++ algs_h ++ claim_h ++ util_h ++ base64_h ++ decode_h ++ encode_h ++
  util_c ++ base64_c ++ claim_c ++ version_c ++ decode_c ++ rename ++ encode_c

end L8w8jwt.C
