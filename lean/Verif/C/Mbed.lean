import Verif.C.Ext
/-!
# mbedTLS and ed25519 as the C text calls them

The functions of Model/Env.lean (`Crypto`) as operations on memory. The structures (declared in Verif/C/Text.lean, `mbed`):

* `mbedtls_pk_context` (also used for the RSA context and the key pair inside it): 4 cells. `kind` says how the key was obtained
  (0: no key, 1: `mbedtls_pk_parse_key`, 2: `mbedtls_pk_parse_public_key`, 3: certificate), `key` and `pw` refer to what it was parsed from,
  `padding` is the hash set by `mbedtls_rsa_set_padding` (0: none).
* `mbedtls_mpi`: one cell with the number. `mbedtls_ecdsa_context`: the number of the group, then `d` and `Q` (key handles).
* entropy and DRBG contexts: one cell, 0 after `init`, 1 after seeding.

The library's own memory is not modelled. Error codes are all -1, `memcmp` of different bytes is 1, and `strstr` returns the
beginning of the string if it finds something (the code only compares them with 0 and NULL).
-/

namespace L8w8jwt.C

/-- `n` bytes at `p`. -/
def readBytes (c : Ctx) (p : Val) (n : Int) : X Bytes := do
  let b ← bytesAt c p
  X.res (rdN b n.toNat)

/-- The value of `mbedtls_md_type_t`. -/
def mdCode : Md → Int
  | .sha256 => 9
  | .sha384 => 10
  | .sha512 => 11

/-- The hash function with the given number. -/
def mdOf (v : Int) : Option Md :=
  if v = 9 then some .sha256 else if v = 10 then some .sha384 else if v = 11 then some .sha512 else none

/-- The `mbedtls_md_info_t` of a hash function. -/
def mdInfo : Option Md → Val
  | none => .ptr none
  | some .sha256 => .ptr (some (.glob "mbedtls_sha256_info", 0))
  | some .sha384 => .ptr (some (.glob "mbedtls_sha384_info", 0))
  | some .sha512 => .ptr (some (.glob "mbedtls_sha512_info", 0))

/-- The hash function of an `mbedtls_md_info_t`. -/
def infoMd (v : Val) : Option Md :=
  if v = mdInfo (some .sha256) then some .sha256
  else if v = mdInfo (some .sha384) then some .sha384
  else if v = mdInfo (some .sha512) then some .sha512
  else none

/-- A context without a key. -/
def pkNone : List Val := [.int 0, .ptr none, .ptr none, .int 0]

/-- A context with a key. -/
def pkCells (kind : Int) (key : Bytes) (pw : Option Bytes) : List Val :=
  [.int kind, .ptr (some (.lit key, 0)), .ptr (pw.map fun b => (.lit b, 0)), .int 0]

/-- The key in a context. -/
def pkOf (cr : Crypto) (l : List Val) : Option cr.PK :=
  match l with
  | [.int kind, .ptr (some (.lit key, 0)), .ptr pw, _] =>
    if kind = 1 then
      match pw with
      | none => cr.parseKey key none
      | some (.lit b, 0) => cr.parseKey key (some b)
      | _ => none
    else if kind = 2 then cr.parsePublicKey key
    else if kind = 3 then cr.parseCrt key
    else none
  | _ => none

/-- The key in the context at `p`, and the context. -/
def pkAt (cr : Crypto) (c : Ctx) (p : Val) : X (cr.PK × List Val) := do
  let l ← readCells c p 4
  match pkOf cr l with
  | some pk => pure (pk, l)
  | none => X.fail .stuck

/-- Fail unless the condition holds. -/
def demand (b : Bool) : X Unit := if b then pure () else X.fail .stuck

/-- The arguments `f_rng` and `p_rng`: a seeded DRBG. -/
def rngOk (c : Ctx) (f p : Val) : X Unit := do
  let l ← readCells c p 1
  demand (f = .ptr (some (.lit (str "mbedtls_ctr_drbg_random"), 0)) && l = [.int 1])

/-- The value of `mbedtls_ecp_group_id`. -/
def curveCode : Curve → Int
  | .secp256r1 => 3
  | .secp384r1 => 4
  | .secp521r1 => 5
  | .secp256k1 => 12
  | .other n => 100 + (n % 1000 : Nat)

/-- A digest as it is written: exactly `m.len` bytes. -/
def digest (m : Md) (h : Bytes) : Bytes := (padTo 64 h).take m.len

/-- Success or failure as a return code. -/
def okCode (b : Bool) : Val := .int (if b then 0 else -1)

/-- `mbedtls_md` -/
def xMd (cr : Crypto) (c : Ctx) (info inp : Val) (n : Int) (out : Val) : X Val :=
  match infoMd info with
  | none => pure (okCode false)
  | some m => do
    let msg ← readBytes c inp n
    match cr.md m msg with
    | none => pure (okCode false)
    | some h => do
      let _ ← writeCells c out (cells (digest m h))
      pure (okCode true)

/-- `mbedtls_md_hmac` -/
def xHmac (cr : Crypto) (c : Ctx) (info key : Val) (k : Int) (inp : Val) (n : Int) (out : Val) : X Val :=
  match infoMd info with
  | none => pure (okCode false)
  | some m => do
    let key ← readBytes c key k
    let msg ← readBytes c inp n
    match cr.hmac m key msg with
    | none => pure (okCode false)
    | some h => do
      let _ ← writeCells c out (cells (digest m h))
      pure (okCode true)

/-- `mbedtls_ctr_drbg_seed`: needs initialised contexts. -/
def xSeed (cr : Crypto) (c : Ctx) (ctx f ent pers : Val) (n : Int) : X Val := do
  let a ← readCells c ctx 1
  let b ← readCells c ent 1
  let _ ← readBytes c pers n
  let _ ← demand (f = .ptr (some (.lit (str "mbedtls_entropy_func"), 0)) && a = [.int 0] && b = [.int 0])
  if cr.seedOk then do
    let _ ← writeCells c ctx [.int 1]
    pure (okCode true)
  else pure (okCode false)

/-- `mbedtls_pk_parse_key`: needs an initialised context without a key. A NULL password means none. -/
def xParseKey (cr : Crypto) (c : Ctx) (ctx key : Val) (n : Int) (pw : Val) (k : Int) (f rng : Val) : X Val := do
  let l ← readCells c ctx 4
  let _ ← demand (l = pkNone)
  let _ ← rngOk c f rng
  let key ← readBytes c key n
  let pw ← strAt c pw
  let pw ← X.res (pwArg pw k.toNat)
  match cr.parseKey key pw with
  | none => pure (okCode false)
  | some _ => do
    let _ ← writeCells c ctx (pkCells 1 key pw)
    pure (okCode true)

/-- `mbedtls_pk_parse_public_key` -/
def xParsePublicKey (cr : Crypto) (c : Ctx) (ctx key : Val) (n : Int) : X Val := do
  let l ← readCells c ctx 4
  let _ ← demand (l = pkNone)
  let key ← readBytes c key n
  match cr.parsePublicKey key with
  | none => pure (okCode false)
  | some _ => do
    let _ ← writeCells c ctx (pkCells 2 key none)
    pure (okCode true)

/-- `mbedtls_x509_crt_parse`: the member `pk` of the certificate is a context with its key. -/
def xParseCrt (cr : Crypto) (c : Ctx) (crt buf : Val) (n : Int) : X Val := do
  let l ← readCells c crt 4
  let _ ← demand (l = pkNone)
  let key ← readBytes c buf n
  match cr.parseCrt key with
  | none => pure (okCode false)
  | some _ => do
    let _ ← writeCells c crt (pkCells 3 key none)
    pure (okCode true)

/-- `mbedtls_pk_can_do`. Simplification: `Crypto.canRsa` is about `MBEDTLS_PK_RSA` or `MBEDTLS_PK_RSA_ALT`; both give this answer. -/
def xCanDo (cr : Crypto) (c : Ctx) (ctx : Val) (t : Int) : X Val := do
  let (pk, _) ← pkAt cr c ctx
  if t = 1 ∨ t = 5 then pure (.ofBool (cr.canRsa pk))
  else if t = 6 then pure (.ofBool (cr.canPss pk))
  else if t = 4 then pure (.ofBool (cr.canEcdsa pk))
  else X.fail .stuck

/-- `mbedtls_pk_sign`: fails if the signature does not fit. -/
def xPkSign (cr : Crypto) (c : Ctx) (ctx : Val) (md : Int) (hash : Val) (n : Int) (sig : Val) (size : Int) (len f rng : Val) : X Val := do
  let (pk, _) ← pkAt cr c ctx
  let _ ← rngOk c f rng
  let h ← readBytes c hash n
  match mdOf md with
  | none => X.fail .stuck
  | some m =>
    match cr.pkSign pk m h with
    | none => pure (okCode false)
    | some s =>
      if size < s.length then pure (okCode false)
      else do
        let _ ← writeCells c sig (cells s)
        let _ ← storeV c (.int .u64) len (.int s.length)
        pure (okCode true)

/-- `mbedtls_pk_verify` -/
def xPkVerify (cr : Crypto) (c : Ctx) (ctx : Val) (md : Int) (hash : Val) (n : Int) (sig : Val) (k : Int) : X Val := do
  let (pk, _) ← pkAt cr c ctx
  let h ← readBytes c hash n
  let s ← readBytes c sig k
  match mdOf md with
  | none => X.fail .stuck
  | some m => pure (okCode (cr.pkVerify pk m h s))

/-- `mbedtls_pk_rsa`: the RSA context in the key (here: the context itself), NULL if it is another kind of key. -/
def xPkRsa (cr : Crypto) (c : Ctx) (ctx : Val) : X Val := do
  let (pk, _) ← pkAt cr c ctx
  pure (if cr.isRsa pk then ctx else .ptr none)

/-- `mbedtls_pk_ec` -/
def xPkEc (cr : Crypto) (c : Ctx) (ctx : Val) : X Val := do
  let (pk, _) ← pkAt cr c ctx
  pure (if cr.isEc pk then ctx else .ptr none)

/-- `mbedtls_rsa_set_padding(ctx, MBEDTLS_RSA_PKCS_V21, md)` -/
def xSetPadding (cr : Crypto) (c : Ctx) (ctx : Val) (pad md : Int) : X Val := do
  let (_, l) ← pkAt cr c ctx
  let _ ← demand (pad = 1)
  let _ ← writeCells c ctx (l.set 3 (.int md))
  pure (okCode true)

/-- `mbedtls_rsa_rsassa_pss_sign`: the padding must have been set for the same hash. The whole signature is written. -/
def xPssSign (cr : Crypto) (c : Ctx) (ctx f rng : Val) (md n : Int) (hash sig : Val) : X Val := do
  let (pk, l) ← pkAt cr c ctx
  let _ ← demand (l[3]? = some (.int md))
  let _ ← rngOk c f rng
  let h ← readBytes c hash n
  match mdOf md with
  | none => X.fail .stuck
  | some m =>
    match cr.pssSign pk m h with
    | none => pure (okCode false)
    | some s => do
      let _ ← writeCells c sig (cells s)
      pure (okCode true)

/-- `mbedtls_rsa_rsassa_pss_verify`: reads as many bytes of signature as the modulus has. -/
def xPssVerify (cr : Crypto) (c : Ctx) (ctx : Val) (md n : Int) (hash sig : Val) : X Val := do
  let (pk, l) ← pkAt cr c ctx
  let _ ← demand (l[3]? = some (.int md))
  let h ← readBytes c hash n
  let s ← readBytes c sig (cr.rsaLen pk)
  match mdOf md with
  | none => X.fail .stuck
  | some m => pure (okCode (cr.pssVerify pk m h s))

/-- An ECDSA context after `mbedtls_ecdsa_init`. -/
def ecNone : List Val := .int 0 :: (pkNone ++ pkNone)

/-- `mbedtls_ecdsa_from_keypair` -/
def xFromKeypair (cr : Crypto) (c : Ctx) (ctx key : Val) : X Val := do
  let a ← readCells c ctx 9
  let _ ← demand (a = ecNone)
  let (pk, l) ← pkAt cr c key
  if cr.ecOk pk then do
    let _ ← writeCells c ctx (.int (curveCode (cr.grpId pk)) :: (l ++ l))
    pure (okCode true)
  else pure (okCode false)

/-- The number in an `mbedtls_mpi`. -/
def mpiAt (c : Ctx) (p : Val) : X Int := do
  let l ← readCells c p 1
  X.lift (l.headD .undef).getInt

/-- `mbedtls_ecdsa_sign`: the group must be that of the key. -/
def xEcdsaSign (cr : Crypto) (c : Ctx) (grp r s d buf : Val) (n : Int) (f rng : Val) : X Val := do
  let (pk, _) ← pkAt cr c d
  let g ← readCells c grp 1
  let _ ← demand (g = [.int (curveCode (cr.grpId pk))])
  let _ ← mpiAt c r
  let _ ← mpiAt c s
  let _ ← rngOk c f rng
  let h ← readBytes c buf n
  match cr.ecdsaSign pk h with
  | none => pure (okCode false)
  | some (vr, vs) => do
    let _ ← writeCells c r [.int vr]
    let _ ← writeCells c s [.int vs]
    pure (okCode true)

/-- `mbedtls_ecdsa_verify` -/
def xEcdsaVerify (cr : Crypto) (c : Ctx) (grp buf : Val) (n : Int) (q r s : Val) : X Val := do
  let (pk, _) ← pkAt cr c q
  let g ← readCells c grp 1
  let _ ← demand (g = [.int (curveCode (cr.grpId pk))])
  let h ← readBytes c buf n
  let vr ← mpiAt c r
  let vs ← mpiAt c s
  pure (okCode (cr.ecdsaVerify pk h vr.toNat vs.toNat))

/-- `mbedtls_mpi_write_binary` -/
def xMpiWrite (c : Ctx) (x buf : Val) (n : Int) : X Val := do
  let v ← mpiAt c x
  match mpiWrite v.toNat n.toNat with
  | none => pure (okCode false)
  | some b => do
    let _ ← writeCells c buf (cells b)
    pure (okCode true)

/-- `mbedtls_mpi_read_binary` -/
def xMpiRead (c : Ctx) (x buf : Val) (n : Int) : X Val := do
  let _ ← mpiAt c x
  let b ← readBytes c buf n
  let _ ← writeCells c x [.int (mpiRead b)]
  pure (okCode true)

/-- `ed25519_sign_ref10`: 64 bytes are written. (The model passes all 65 bytes of the key array; the function is a parameter.) -/
def xEdSign (cr : Crypto) (c : Ctx) (sig msg : Val) (n : Int) (key : Val) : X Val := do
  let m ← readBytes c msg n
  let k ← readBytes c key 65
  let _ ← writeCells c sig (cells ((padTo 64 (cr.edSign m k)).take 64))
  pure .undef

/-- `ed25519_verify`: reads 64 bytes of signature and 32 bytes of key. -/
def xEdVerify (cr : Crypto) (c : Ctx) (sig msg : Val) (n : Int) (key : Val) : X Val := do
  let s ← readBytes c sig 64
  let m ← readBytes c msg n
  let k ← readBytes c key 32
  pure (.ofBool (cr.edVerify s m k))

/-- Write the initial content of a structure. -/
def xReset (c : Ctx) (p : Val) (l : List Val) : X Val := do
  let _ ← writeCells c p l
  pure .undef

/-- The functions of mbedTLS and ed25519. -/
def mbed (cr : Crypto) (c : Ctx) (f : String) (args : List Val) : X Val :=
  match f, args with
  | "mbedtls_md_info_from_type", [.int t] => pure (mdInfo (mdOf t))
  | "mbedtls_md", [info, inp, .int n, out] => xMd cr c info inp n out
  | "mbedtls_md_hmac", [info, key, .int k, inp, .int n, out] => xHmac cr c info key k inp n out
  | "mbedtls_entropy_init", [p] => xReset c p [.int 0]
  | "mbedtls_entropy_free", [p] => xReset c p [.int 0]
  | "mbedtls_ctr_drbg_init", [p] => xReset c p [.int 0]
  | "mbedtls_ctr_drbg_free", [p] => xReset c p [.int 0]
  | "mbedtls_ctr_drbg_seed", [p, fe, e, pers, .int n] => xSeed cr c p fe e pers n
  | "mbedtls_pk_init", [p] => xReset c p pkNone
  | "mbedtls_pk_free", [p] => xReset c p pkNone
  | "mbedtls_pk_parse_key", [p, key, .int n, pw, .int k, fr, rng] => xParseKey cr c p key n pw k fr rng
  | "mbedtls_pk_parse_public_key", [p, key, .int n] => xParsePublicKey cr c p key n
  | "mbedtls_pk_can_do", [p, .int t] => xCanDo cr c p t
  | "mbedtls_pk_get_bitlen", [p] => do
    let (pk, _) ← pkAt cr c p
    pure (.int (cr.bitlen pk))
  | "mbedtls_pk_sign", [p, .int md, hash, .int n, sig, .int size, len, fr, rng] => xPkSign cr c p md hash n sig size len fr rng
  | "mbedtls_pk_verify", [p, .int md, hash, .int n, sig, .int k] => xPkVerify cr c p md hash n sig k
  | "mbedtls_pk_rsa", [p] => xPkRsa cr c p
  | "mbedtls_pk_ec", [p] => xPkEc cr c p
  | "mbedtls_rsa_set_padding", [p, .int pad, .int md] => xSetPadding cr c p pad md
  | "mbedtls_rsa_rsassa_pss_sign", [p, fr, rng, .int md, .int n, hash, sig] => xPssSign cr c p fr rng md n hash sig
  | "mbedtls_rsa_rsassa_pss_verify", [p, .int md, .int n, hash, sig] => xPssVerify cr c p md n hash sig
  | "mbedtls_ecdsa_init", [p] => xReset c p ecNone
  | "mbedtls_ecdsa_free", [p] => xReset c p ecNone
  | "mbedtls_ecdsa_from_keypair", [p, key] => xFromKeypair cr c p key
  | "mbedtls_ecdsa_sign", [grp, r, s, dd, buf, .int n, fr, rng] => xEcdsaSign cr c grp r s dd buf n fr rng
  | "mbedtls_ecdsa_verify", [grp, buf, .int n, q, r, s] => xEcdsaVerify cr c grp buf n q r s
  | "mbedtls_mpi_init", [p] => xReset c p [.int 0]
  | "mbedtls_mpi_free", [p] => xReset c p [.int 0]
  | "mbedtls_mpi_write_binary", [x, buf, .int n] => xMpiWrite c x buf n
  | "mbedtls_mpi_read_binary", [x, buf, .int n] => xMpiRead c x buf n
  | "mbedtls_x509_crt_init", [p] => xReset c p pkNone
  | "mbedtls_x509_crt_free", [p] => xReset c p pkNone
  | "mbedtls_x509_crt_parse", [p, buf, .int n] => xParseCrt cr c p buf n
  | "ed25519_sign_ref10", [sig, msg, .int n, key] => xEdSign cr c sig msg n key
  | "ed25519_verify", [sig, msg, .int n, key] => xEdVerify cr c sig msg n key
  | "memcmp", [p, q, .int n] => do
    let a ← bytesAt c p
    let b ← bytesAt c q
    let r ← X.res (memcmpNe a b n.toNat)
    pure (.ofBool r)
  | "strstr", [p, q] => do
    let a ← bytesAt c p
    let b ← bytesAt c q
    let k ← X.res (strlen b)
    let r ← X.res (strstrFound a (b.take k))
    pure (if r then p else .ptr none)
  | "snprintf", [p, .int n, .ptr (some (.lit fmt, 0)), .int v] => do
    let _ ← demand (fmt = str "%lu" && decide (0 < n))
    let _ ← writeCells c p (cells (snprintfU64 n.toNat v.toNat))
    pure (.int (decimal v.toNat).length)
  | _, _ => X.fail .stuck

end L8w8jwt.C
