import Verif.C.SignWhole
/-!
# The text of l8w8jwt_verify_signature (src/decode.c:464-737) in parts
-/

namespace L8w8jwt.C
open L8w8jwt L8w8jwt.C.Src

/-- The address of member `i` of the parameters. -/
def verPar (i : Int) : Expr := .padd 1 (.loc 0) (.num i)

/-- `if (e) { r = n; goto exit; }` -/
def verElse (e : Expr) (n : Int) : Stmt := .ite e (.seq (.exp (.set 4 (.num n))) (.goto "exit")) .skip

/-- `if (r != 0) { r = n; goto exit; }` -/
def verFail (n : Int) : Stmt := verElse (.cmp .ne (.loc 4) (.num 0)) n

/-- `*out_validation_res |= (unsigned)L8W8JWT_SIGNATURE_VERIFICATION_FAILURE` -/
def verFlag : Stmt := .exp (.store (.int .u32) (.loc 1) (.ar .bor .u32 (.load (.int .u32) (.loc 1)) (.num 128)))

/-- `if (e) { *out_validation_res |= …; break; }` -/
def verBad (e : Expr) : Stmt := .ite e (.seq verFlag .brk) .skip

/-- `r != 0` -/
def verNz : Expr := .cmp .ne (.loc 4) (.num 0)

/-- The length of the signing input: `signature_segment - params->jwt` -/
def verLen : Expr := .cast .u64 (.pdiff 1 (.loc 15) (.load .ptr (.loc 0)))

/-- `if (!is_cert) { r = mbedtls_pk_parse_public_key(&pk, key, key_length); … }` -/
def verPub : Stmt :=
  .ite (.not (.loc 6)) (.seq (.exp (.set 4 (callE "mbedtls_pk_parse_public_key" [.loc 7, .loc 9, .loc 10]))) (verFail 420)) .skip

/-- decode.c:466-467 -/
def verStart : List Stmt :=
  [.exp (.set 4 (.num 0)),
   .exp (.set 5 (.load (.int .i32) (verPar 2)))]

/-- decode.c:469 -/
def verSkip : Expr := .lor (.lor (.cmp .eq (.loc 5) (.num (-1))) (.cmp .eq (.loc 2) .null)) (.cmp .eq (.loc 3) (.num 0))

/-- decode.c:475-481 -/
def verInit : List Stmt :=
  [.exp (.set 6 (.num 0)),
   .declMem 7 4 [] .undef,
   .exp (callE "mbedtls_pk_init" [.loc 7]),
   .declMem 8 4 [] .undef,
   .exp (callE "mbedtls_x509_crt_init" [.loc 8])]

/-- decode.c:483-492: the buffer for the key. -/
def verBuf (ss : Bool) : List Stmt :=
  if ss then
    [.exp (.set 9 (callE "calloc" [.num 1, .num 8192])),
     verElse (.cmp .eq (.loc 9) .null) 300]
  else
    [.declMem 9 8192 [.int 0] (.int 0)]

/-- decode.c:494-498 -/
def verSeed : List Stmt :=
  [.exp (.set 10 (.load (.int .u64) (verPar 18))),
   .exp (callE "memcpy" [.loc 9, .load .ptr (verPar 17), .loc 10]),
   .exp (.set 10 (.ar .add .u64 (.loc 10) (.cast .u64 (.cmp .ne (.load (.int .u8) (.padd 1 (.loc 9) (.ar .sub .u64 (.loc 10) (.num 1)))) (.num 0))))),
   .exp (.set 6 (.cmp .ne (callE "strstr" [.loc 9, .str [45, 45, 45, 45, 45, 66, 69, 71, 73, 78, 32, 67, 69, 82, 84, 73, 70, 73, 67, 65, 84, 69, 45, 45, 45, 45, 45]]) .null))]

/-- decode.c:500-510 -/
def verCrt : Stmt :=
  .ite (.loc 6)
    (.seq (.exp (.set 4 (callE "mbedtls_x509_crt_parse" [.loc 8, .loc 9, .loc 10]))) (.seq (verFail 420) (.exp (.copy 4 (.loc 7) (.loc 8)))))
    .skip

/-- decode.c:512-518 -/
def verMd : List Stmt :=
  [.declMem 11 1 [] .undef,
   .exp (.store (.int .u64) (.loc 11) (.num 0)),
   .declMem 12 1 [] .undef,
   .exp (.store (.int .u32) (.loc 12) (.num 0)),
   .declMem 13 1 [] .undef,
   .exp (.store .ptr (.loc 13) .null),
   .exp (callE "md_info_from_alg" [.loc 5, .loc 13, .loc 12, .loc 11]),
   .declMem 14 64 [.int 0] (.int 0)]

/-- decode.c:520-534 -/
def verDot : List Stmt :=
  [.exp (.set 15 (callE "strchr" [.load .ptr (.loc 0), .num 46])),
   verElse (.cmp .eq (.loc 15) .null) 600,
   .exp (.set 15 (callE "strchr" [.padd 1 (.loc 15) (.num 1), .num 46])),
   verElse (.cmp .eq (.loc 15) .null) 600]

/-- decode.c:536-559 -/
def verHashL : List Stmt :=
  [9, 10, 11, 3, 4, 5, 6, 7, 8, 12].map Stmt.case ++
    [.exp (.set 4 (callE "mbedtls_md" [.load .ptr (.loc 13), .load .ptr (.loc 0), verLen, .loc 14])),
     verFail 410,
     .brk,
     .default]

/-- decode.c:563-585 -/
def verHmacL : List Stmt :=
  [.case 0,
   .case 1,
   .case 2,
   .declMem 16 64 [] .undef,
   .exp (callE "memset" [.loc 16, .num 0, .num 64]),
   .exp (.set 4 (callE "mbedtls_md_hmac" [.load .ptr (.loc 13), .loc 9, .ar .sub .u64 (.loc 10) (.num 1), .load .ptr (.loc 0), verLen, .loc 16])),
   verBad verNz,
   .exp (.set 4 (callE "memcmp" [.loc 2, .loc 16, .cast .u64 (.ar .add .i32 (.num 32) (.ar .mul .i32 (.num 16) (.loc 5)))])),
   verBad verNz,
   .brk]

/-- decode.c:586-608 -/
def verRsaL : List Stmt :=
  [.case 3,
   .case 4,
   .case 5,
   verPub,
   .exp (.set 4 (callE "mbedtls_pk_verify" [.loc 7, .load (.int .u32) (.loc 12), .loc 14, .load (.int .u64) (.loc 11), .loc 2, .loc 3])),
   verBad verNz,
   .brk]

/-- decode.c:609-634 -/
def verPssL : List Stmt :=
  [.case 6,
   .case 7,
   .case 8,
   verPub,
   .exp (.set 17 (callE "mbedtls_pk_rsa" [.loc 7])),
   .exp (callE "mbedtls_rsa_set_padding" [.loc 17, .num 1, .load (.int .u32) (.loc 12)]),
   .exp (.set 4 (callE "mbedtls_rsa_rsassa_pss_verify" [.loc 17, .load (.int .u32) (.loc 12), .cast .u32 (.load (.int .u64) (.loc 11)), .loc 14, .loc 2])),
   verBad verNz,
   .brk]

/-- decode.c:635-684 -/
def verEcL : List Stmt :=
  [.case 9,
   .case 12,
   .case 10,
   .case 11,
   verPub,
   .exp (.set 18 (.ar .div .u64 (.loc 3) (.num 2))),
   .declMem 19 9 [] .undef,
   .exp (callE "mbedtls_ecdsa_init" [.loc 19]),
   .declMem 20 1 [] .undef,
   .declMem 21 1 [] .undef,
   .exp (callE "mbedtls_mpi_init" [.loc 20]),
   .exp (callE "mbedtls_mpi_init" [.loc 21]),
   .exp (.set 4 (callE "mbedtls_ecdsa_from_keypair" [.loc 19, callE "mbedtls_pk_ec" [.loc 7]])),
   .ite verNz
    (pre [.exp (.set 4 (.num 420)),
          .exp (callE "mbedtls_ecdsa_free" [.loc 19]),
          .exp (callE "mbedtls_mpi_free" [.loc 20]),
          .exp (callE "mbedtls_mpi_free" [.loc 21])] (.goto "exit"))
    .skip,
   .exp (callE "mbedtls_mpi_read_binary" [.loc 20, .loc 2, .loc 18]),
   .exp (callE "mbedtls_mpi_read_binary" [.loc 21, .padd 1 (.loc 2) (.loc 18), .loc 18]),
   .exp (.set 4 (callE "mbedtls_ecdsa_verify" [.loc 19, .loc 14, .load (.int .u64) (.loc 11), .padd 1 (.loc 19) (.num 5), .loc 20, .loc 21])),
   .ite verNz verFlag .skip,
   .exp (callE "mbedtls_ecdsa_free" [.loc 19]),
   .exp (callE "mbedtls_mpi_free" [.loc 20]),
   .exp (callE "mbedtls_mpi_free" [.loc 21]),
   .brk]

/-- decode.c:688 -/
def verEdCond : Expr :=
  .land (.cmp .ne (.loc 10) (.num 64))
    (.not (.land (.cmp .eq (.loc 10) (.num 65)) (.cmp .eq (.load (.int .u8) (.padd 1 (.loc 9) (.num 64))) (.num 0))))

/-- decode.c:685-713 -/
def verEdL : List Stmt :=
  [.case 13,
   verElse verEdCond 450,
   .declMem 22 33 [.int 0] (.int 0),
   verElse (.cmp .ne (callE "l8w8jwt_hexstr2bin" [.loc 9, .loc 10, .loc 22, .num 33, .null]) (.num 0)) 450,
   verBad (.not (callE "ed25519_verify" [.loc 2, .load .ptr (.loc 0), verLen, .loc 22])),
   .brk,
   .default]

/-- decode.c:685-713, in a build without EdDSA. -/
def verEdOffL : List Stmt := [.case 13, .exp (.set 4 (.num 800)), .goto "exit", .default]

/-- decode.c:685-713 -/
def verEdLs (ed : Bool) : List Stmt := if ed then verEdL else verEdOffL

/-- decode.c:561-716: the body of the second `switch`. -/
def verSw (ed : Bool) : Stmt := pre verHmacL (pre verRsaL (pre verPssL (pre verEcL (pre (verEdLs ed) .brk))))

/-- decode.c:720-736 -/
def verExit (ss : Bool) : List Stmt :=
  [.label "exit",
   .exp (callE "mbedtls_platform_zeroize" [.loc 9, .num 8192])] ++
  (if ss then [.exp (callE "l8w8jwt_free" [.loc 9])] else []) ++
  [.ite (.loc 6) (.exp (callE "mbedtls_x509_crt_free" [.loc 8])) (.exp (callE "mbedtls_pk_free" [.loc 7]))]

/-- decode.c:718-736 -/
def verEnd (ss : Bool) : Stmt := .seq (.exp (.set 4 (.num 0))) (pre (verExit ss) (.ret (.loc 4)))

/-- decode.c:536-736 -/
def verAlgs (ed ss : Bool) : Stmt := .seq (.switch (.loc 5) (pre verHashL .brk)) (.seq (.switch (.loc 5) (verSw ed)) (verEnd ss))

/-- The function in the four builds. -/
def verFun (ed ss : Bool) : CFun :=
  pick ed ss l8w8jwt_verify_signature Src0.l8w8jwt_verify_signature SrcS.l8w8jwt_verify_signature SrcS0.l8w8jwt_verify_signature

theorem verFun_body (ed ss : Bool) : (verFun ed ss).body =
    pre verStart (.seq (.ite verSkip (.ret (.loc 4)) .skip) (pre verInit (pre (verBuf ss) (pre verSeed (.seq verCrt (pre verMd (pre verDot (verAlgs ed ss)))))))) := by
  cases ed <;> cases ss <;> rfl

theorem verFun_slots (ed ss : Bool) : List.replicate ((verFun ed ss).slots - (verFun ed ss).params) Val.undef = List.replicate 18 .undef ++ edVar ed := by
  cases ed <;> cases ss <;> rfl

end L8w8jwt.C
