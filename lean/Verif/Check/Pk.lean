import Verif.Check.Sha2
/-!
# RSA, ECDSA, Ed25519 and key files

Not a model of mbedTLS or ed25519: short implementations of the standards (RFC 8017, FIPS 186-4 with the curves of SEC 2, RFC 8032, the
DER and PEM forms of keys), to run the model on recorded tokens (`Verif/Check/Recorded.lean`) and on the test suite of the repository
(`Verif/Check/RepoTests.lean`). Salts and nonces are derived from the message instead of being random. No theorem depends on this file.
-/

namespace L8w8jwt.Check

/-! ## Numbers -/

/-- The bits of a number, the highest first. -/
def bitsOf (n : Nat) : List Bool := (List.range (n.log2 + 1)).reverse.map n.testBit

def powMod (b e m : Nat) : Nat := (bitsOf e).foldl (fun a bit => let s := a * a % m; if bit then s * b % m else s) (1 % m)

/-- Inverse modulo a prime. -/
def invMod (a p : Nat) : Nat := powMod a (p - 2) p

/-- `a - b` modulo `p`, for `a, b < p`. -/
def subMod (a b p : Nat) : Nat := (a + (p - b)) % p

/-! ## RSA -/

/-- MGF1 (RFC 8017, B.2.1). -/
def mgf1 (md : Md) (seed : Bytes) (n : Nat) : Bytes :=
  (((List.range (n / md.len + 1)).map fun i => sha md (seed ++ natBe 4 i)).flatten).take n

def xorBytes (a b : Bytes) : Bytes := List.zipWith (· ^^^ ·) a b

/-- The DER prefix of a digest (RFC 8017, 9.2, note 1). -/
def digestInfo (md : Md) : Bytes :=
  let oid : UInt8 := match md with | .sha256 => 1 | .sha384 => 2 | .sha512 => 3
  [0x30, 0x11 + UInt8.ofNat md.len, 0x30, 0x0d, 0x06, 0x09, 0x60, 0x86, 0x48, 0x01, 0x65, 0x03, 0x04, 0x02, oid, 0x05, 0x00, 0x04,
    UInt8.ofNat md.len]

/-- EMSA-PKCS1-v1_5. -/
def emsaPkcs1 (len : Nat) (md : Md) (h : Bytes) : Bytes :=
  let t := digestInfo md ++ h
  [0, 1] ++ List.replicate (len - t.length - 3) 0xff ++ [0] ++ t

/-- EMSA-PSS encoding with a given salt. -/
def emsaPss (bits : Nat) (md : Md) (h salt : Bytes) : Bytes :=
  let len := (bits + 7) / 8
  let hh := sha md (List.replicate 8 0 ++ h ++ salt)
  let db := List.replicate (len - salt.length - hh.length - 2) 0 ++ [1] ++ salt
  let masked := xorBytes db (mgf1 md hh (len - hh.length - 1))
  let masked := (masked.headD 0 &&& UInt8.ofNat (0xff >>> (8 * len - bits))) :: masked.drop 1
  masked ++ hh ++ [0xbc]

/-- EMSA-PSS verification, for any length of the salt. -/
def emsaPssOk (bits : Nat) (md : Md) (h em : Bytes) : Bool :=
  let len := (bits + 7) / 8
  let dbLen := len - md.len - 1
  let masked := em.take dbLen
  let hh := (em.drop dbLen).take md.len
  let db := xorBytes masked (mgf1 md hh dbLen)
  let db := (db.headD 0 &&& UInt8.ofNat (0xff >>> (8 * len - bits))) :: db.drop 1
  let rest := db.dropWhile (· == 0)
  em.length == len && em.getLast? == some 0xbc && rest.head? == some 1
    && hh == sha md (List.replicate 8 0 ++ h ++ rest.drop 1)

/-! ## Elliptic curves -/

/-- y² = x³ + ax + b over the field of p elements, base point, order. -/
structure Ec where
  id : Curve
  p : Nat
  a : Nat
  gx : Nat
  gy : Nat
  n : Nat
  deriving DecidableEq

def secp256r1 : Ec where
  id := .secp256r1
  p := 0xffffffff00000001000000000000000000000000ffffffffffffffffffffffff
  a := 0xffffffff00000001000000000000000000000000fffffffffffffffffffffffc
  gx := 0x6b17d1f2e12c4247f8bce6e563a440f277037d812deb33a0f4a13945d898c296
  gy := 0x4fe342e2fe1a7f9b8ee7eb4a7c0f9e162bce33576b315ececbb6406837bf51f5
  n := 0xffffffff00000000ffffffffffffffffbce6faada7179e84f3b9cac2fc632551

def secp256k1 : Ec where
  id := .secp256k1
  p := 0xfffffffffffffffffffffffffffffffffffffffffffffffffffffffefffffc2f
  a := 0
  gx := 0x79be667ef9dcbbac55a06295ce870b07029bfcdb2dce28d959f2815b16f81798
  gy := 0x483ada7726a3c4655da4fbfc0e1108a8fd17b448a68554199c47d08ffb10d4b8
  n := 0xfffffffffffffffffffffffffffffffebaaedce6af48a03bbfd25e8cd0364141

def secp384r1 : Ec where
  id := .secp384r1
  p := 2 ^ 384 - 2 ^ 128 - 2 ^ 96 + 2 ^ 32 - 1
  a := 2 ^ 384 - 2 ^ 128 - 2 ^ 96 + 2 ^ 32 - 4
  gx := 0xaa87ca22be8b05378eb1c71ef320ad746e1d3b628ba79b9859f741e082542a385502f25dbf55296c3a545e3872760ab7
  gy := 0x3617de4a96262c6f5d9e98bf9292dc29f8f41dbd289a147ce9da3113b5f0b8c00a60b1ce1d7e819d7a431d7c90ea0e5f
  n := 0xffffffffffffffffffffffffffffffffffffffffffffffffc7634d81f4372ddf581a0db248b0a77aecec196accc52973

def secp521r1 : Ec where
  id := .secp521r1
  p := 2 ^ 521 - 1
  a := 2 ^ 521 - 4
  gx := 0x00c6858e06b70404e9cd9e3ecb662395b4429c648139053fb521f828af606b4d3dbaa14b5e77efe75928fe1dc127a2ffa8de3348b3c1856a429bf97e7e31c2e5bd66
  gy := 0x011839296a789a3bc0045c8a5fb42c7d1bd998f54449579b446817afbd17273e662c97ee72995ef42640c550b9013fad0761353c7086a272c24088be94769fd16650
  n := 0x01fffffffffffffffffffffffffffffffffffffffffffffffffffffffffffffffffa51868783bf2f966b7fcc0148f709a5d03bb5c9b8899c47aebb6fb71e91386409

/-- Jacobian coordinates; `z = 0` is the point at infinity. -/
structure Jac where
  x : Nat
  y : Nat
  z : Nat

def Ec.dbl (c : Ec) (q : Jac) : Jac :=
  let yy := q.y * q.y % c.p
  let s := 4 * q.x * yy % c.p
  let zz := q.z * q.z % c.p
  let m := (3 * q.x * q.x + c.a * (zz * zz % c.p)) % c.p
  let x := subMod (m * m % c.p) (2 * s % c.p) c.p
  ⟨x, subMod (m * subMod s x c.p % c.p) (8 * yy * yy % c.p) c.p, 2 * q.y * q.z % c.p⟩

def Ec.add (c : Ec) (q r : Jac) : Jac :=
  if q.z = 0 then r else if r.z = 0 then q else
  let qzz := q.z * q.z % c.p
  let rzz := r.z * r.z % c.p
  let u1 := q.x * rzz % c.p
  let u2 := r.x * qzz % c.p
  let s1 := q.y * r.z % c.p * rzz % c.p
  let s2 := r.y * q.z % c.p * qzz % c.p
  if u1 = u2 then (if s1 = s2 then c.dbl q else ⟨1, 1, 0⟩) else
  let h := subMod u2 u1 c.p
  let t := subMod s2 s1 c.p
  let hh := h * h % c.p
  let hhh := h * hh % c.p
  let v := u1 * hh % c.p
  let x := subMod (subMod (t * t % c.p) hhh c.p) (2 * v % c.p) c.p
  ⟨x, subMod (t * subMod v x c.p % c.p) (s1 * hhh % c.p) c.p, q.z * r.z % c.p * h % c.p⟩

def Ec.mul (c : Ec) (k : Nat) (q : Jac) : Jac :=
  (bitsOf k).foldl (fun a bit => let d := c.dbl a; if bit then c.add d q else d) ⟨1, 1, 0⟩

def Ec.g (c : Ec) : Jac := ⟨c.gx, c.gy, 1⟩

/-- Affine coordinates of a point other than infinity. -/
def Ec.affine (c : Ec) (q : Jac) : Nat × Nat :=
  let i := invMod q.z c.p
  let ii := i * i % c.p
  (q.x * ii % c.p, q.y * (ii * i % c.p) % c.p)

/-- The leftmost bits of a digest, as a number (FIPS 186-4, 6.4). -/
def Ec.hashNat (c : Ec) (h : Bytes) : Nat := beNat h >>> (8 * h.length - (c.n.log2 + 1))

def Ec.sign (c : Ec) (d : Nat) (h : Bytes) : Option (Nat × Nat) :=
  let k := beNat (sha .sha512 (natBe 66 d ++ h) ++ sha .sha512 (h ++ natBe 66 d)) % (c.n - 1) + 1
  let r := (c.affine (c.mul k c.g)).1 % c.n
  let s := invMod k c.n * (c.hashNat h + r * d) % c.n
  if r = 0 ∨ s = 0 then none else some (r, s)

def Ec.verify (c : Ec) (q : Nat × Nat) (h : Bytes) (r s : Nat) : Bool :=
  if r = 0 ∨ c.n ≤ r ∨ s = 0 ∨ c.n ≤ s then false else
  let w := invMod s c.n
  let t := c.add (c.mul (c.hashNat h * w % c.n) c.g) (c.mul (r * w % c.n) ⟨q.1, q.2, 1⟩)
  t.z != 0 && (c.affine t).1 % c.n == r

/-! ## Ed25519 -/

def edP : Nat := 2 ^ 255 - 19
def edL : Nat := 2 ^ 252 + 27742317777372353535851937790883648493
def edD : Nat := (edP - 121665) * invMod 121666 edP % edP

/-- Extended coordinates. -/
structure Ed where
  x : Nat
  y : Nat
  z : Nat
  t : Nat

def Ed.add (q r : Ed) : Ed :=
  let a := subMod q.y q.x edP * subMod r.y r.x edP % edP
  let b := (q.y + q.x) * (r.y + r.x) % edP
  let c := 2 * q.t * edD % edP * r.t % edP
  let d := 2 * q.z * r.z % edP
  let e := subMod b a edP
  let f := subMod d c edP
  let g := (d + c) % edP
  let h := (b + a) % edP
  ⟨e * f % edP, g * h % edP, f * g % edP, e * h % edP⟩

def Ed.mul (k : Nat) (q : Ed) : Ed :=
  (bitsOf k).foldl (fun a bit => let d := a.add a; if bit then d.add q else d) ⟨0, 1, 1, 0⟩

def leNat (bs : Bytes) : Nat := beNat bs.reverse
def natLe (n x : Nat) : Bytes := (natBe n x).reverse

def Ed.compress (q : Ed) : Bytes :=
  let i := invMod q.z edP
  natLe 32 (q.y * i % edP + (q.x * i % edP % 2) * 2 ^ 255)

/-- The point with a given second coordinate and sign (RFC 8032, 5.1.3). -/
def edDecompress (bs : Bytes) : Option Ed :=
  let v := leNat bs
  let y := v % 2 ^ 255
  let sign := v / 2 ^ 255
  let xx := subMod (y * y % edP) 1 edP * invMod (edD * y % edP * y % edP + 1) edP % edP
  let x := powMod xx ((edP + 3) / 8) edP
  let x := if x * x % edP = xx then x else x * powMod 2 ((edP - 1) / 4) edP % edP
  if edP ≤ y ∨ x * x % edP ≠ xx then none
  else
    let x := if x % 2 = sign then x else (edP - x) % edP
    some ⟨x, y, 1, x * y % edP⟩

/-- The base point: y = 4/5, x even. -/
def edB : Ed := (edDecompress (natLe 32 (4 * invMod 5 edP % edP))).getD ⟨0, 1, 1, 0⟩

/-- Signing with a private key in the form seed, public key (64 bytes). -/
def edSign (m key : Bytes) : Bytes :=
  let az := sha .sha512 (key.take 32)
  let a := (leNat (az.take 32) % 2 ^ 255) / 8 * 8 % 2 ^ 254 + 2 ^ 254
  let pub := (key.drop 32).take 32
  let r := leNat (sha .sha512 (az.drop 32 ++ m)) % edL
  let rr := (Ed.mul r edB).compress
  let k := leNat (sha .sha512 (rr ++ pub ++ m)) % edL
  rr ++ natLe 32 ((r + k * a) % edL)

def edVerify (sig m pub : Bytes) : Bool :=
  match edDecompress pub with
  | none => false
  | some a =>
    let s := leNat (sig.drop 32)
    let k := leNat (sha .sha512 (sig.take 32 ++ pub ++ m)) % edL
    let neg : Ed := ⟨(edP - a.x) % edP, a.y, a.z, (edP - a.t) % edP⟩
    sig.length == 64 && decide (s < 2 ^ 253) && ((Ed.mul s edB).add (Ed.mul k neg)).compress == sig.take 32

/-! ## Key files -/

/-- The first DER element: tag, content, what follows it. -/
def tlv (bs : Bytes) : Option (UInt8 × Bytes × Bytes) :=
  match bs with
  | tag :: l :: rest =>
    let (len, rest) := if l < 0x80 then (l.toNat, rest) else (beNat (rest.take (l.toNat - 0x80)), rest.drop (l.toNat - 0x80))
    if rest.length < len then none else some (tag, rest.take len, rest.drop len)
  | _ => none

/-- The elements in a row of DER elements. -/
def tlvs : Nat → Bytes → List (UInt8 × Bytes)
  | 0, _ => []
  | n + 1, bs =>
    match tlv bs with
    | some (t, c, rest) => (t, c) :: tlvs n rest
    | none => []

/-- The elements of a DER sequence. -/
def derSeq (bs : Bytes) : List (UInt8 × Bytes) :=
  match tlv bs with
  | some (0x30, c, _) => tlvs c.length c
  | _ => []

/-- A key. The modulus has at most 8192 bits (`MBEDTLS_MPI_MAX_SIZE`). -/
inductive Pk where
  | rsa (n e : Nat) (d : Option Nat) (small : n.log2 < 8192)
  | ec (c : Ec) (d : Option Nat) (q : Nat × Nat)

def curveOfOid (oid : Bytes) : Option Ec :=
  if oid = [0x2a, 0x86, 0x48, 0xce, 0x3d, 0x03, 0x01, 0x07] then some secp256r1
  else if oid = [0x2b, 0x81, 0x04, 0x00, 0x0a] then some secp256k1
  else if oid = [0x2b, 0x81, 0x04, 0x00, 0x22] then some secp384r1
  else if oid = [0x2b, 0x81, 0x04, 0x00, 0x23] then some secp521r1
  else none

def rsaKey (n e : Nat) (d : Option Nat) : Option Pk := if h : n.log2 < 8192 then some (.rsa n e d h) else none

/-- RSAPrivateKey (RFC 8017, A.1.2). -/
def rsaPrivate (der : Bytes) : Option Pk :=
  match derSeq der with
  | _ :: (2, n) :: (2, e) :: (2, d) :: _ => rsaKey (beNat n) (beNat e) (some (beNat d))
  | _ => none

/-- ECPrivateKey (RFC 5915). -/
def ecPrivate (der : Bytes) : Option Pk :=
  match derSeq der with
  | _ :: (4, d) :: (0xa0, par) :: _ =>
    match tlv par with
    | some (6, oid, _) => (curveOfOid oid).map fun c => .ec c (some (beNat d)) (c.affine (c.mul (beNat d) c.g))
    | _ => none
  | _ => none

/-- SubjectPublicKeyInfo: the elements of the outer sequence. -/
def spki (els : List (UInt8 × Bytes)) : Option Pk :=
  match els with
  | (0x30, alg) :: (3, key) :: _ =>
    match tlvs 2 alg with
    | (6, oid) :: par =>
      if oid = [0x2a, 0x86, 0x48, 0x86, 0xf7, 0x0d, 0x01, 0x01, 0x01] then
        match derSeq (key.drop 1) with
        | (2, n) :: (2, e) :: _ => rsaKey (beNat n) (beNat e) none
        | _ => none
      else match par with
        | (6, curve) :: _ =>
          let pt := key.drop 2
          (curveOfOid curve).map fun c => .ec c none (beNat (pt.take (pt.length / 2)), beNat (pt.drop (pt.length / 2)))
        | _ => none
    | _ => none
  | _ => none

/-- The key of a certificate (RFC 5280, 4.1). -/
def crtKey (der : Bytes) : Option Pk :=
  match derSeq der with
  | (0x30, tbs) :: _ =>
    match (tlvs tbs.length tbs).dropWhile (fun t => t.1 == 0xa0) with
    | _serial :: _sigAlg :: _issuer :: _validity :: _subject :: (0x30, key) :: _ => spki (tlvs key.length key)
    | _ => none
  | _ => none

/-- Plain base64 (RFC 4648, section 4), for PEM: the value of a character. -/
def pemDigit (c : UInt8) : Option Nat :=
  if 65 ≤ c ∧ c ≤ 90 then some (c.toNat - 65)
  else if 97 ≤ c ∧ c ≤ 122 then some (c.toNat - 71)
  else if 48 ≤ c ∧ c ≤ 57 then some (c.toNat + 4)
  else if c = 43 then some 62 else if c = 47 then some 63 else none

def pemGroups : List Nat → Bytes
  | a :: b :: c :: d :: t => natBe 3 (((a * 64 + b) * 64 + c) * 64 + d) ++ pemGroups t
  | [a, b, c] => natBe 2 ((a * 64 + b) * 16 + c / 4)
  | [a, b] => natBe 1 (a * 4 + b / 16)
  | _ => []

/-- What follows the first occurrence of a text. -/
def after (pat : Bytes) : Bytes → Option Bytes
  | [] => none
  | c :: t => if pat.isPrefixOf (c :: t) then some ((c :: t).drop pat.length) else after pat t

/-- The content of the PEM block with a given label; the text has to end with NUL (as `mbedtls_pk_parse_key` requires). -/
def pem (label : String) (text : Bytes) : Option Bytes :=
  if text.getLast? ≠ some 0 then none else
  match after (str "-----BEGIN " ++ str label ++ str "-----") text with
  | none => none
  | some body => some (pemGroups ((body.takeWhile (· ≠ 45)).filterMap pemDigit))

/-- PKCS #8 (RFC 5208). -/
def pkcs8 (der : Bytes) : Option Pk :=
  match derSeq der with
  | _ :: _ :: (4, key) :: _ => rsaPrivate key
  | _ => none

def parsePrivate (text : Bytes) : Option Pk :=
  match pem "RSA PRIVATE KEY" text with
  | some der => rsaPrivate der
  | none =>
    match pem "EC PRIVATE KEY" text with
    | some der => ecPrivate der
    | none => (pem "PRIVATE KEY" text).bind pkcs8

def parsePublic (text : Bytes) : Option Pk := (pem "PUBLIC KEY" text).bind fun der => spki (derSeq der)

def parseCert (text : Bytes) : Option Pk := (pem "CERTIFICATE" text).bind crtKey

def Pk.bits : Pk → Nat
  | .rsa n _ _ _ => n.log2 + 1
  | .ec c _ _ => c.p.log2 + 1

def Pk.isRsa : Pk → Bool
  | .rsa .. => true
  | .ec .. => false

/-- The parameter of the model, with real functions. -/
def realCrypto : Crypto where
  PK := Pk
  seedOk := true
  hmac md k m := some (hmac md k m)
  md md m := some (sha md m)
  parseKey k _ := parsePrivate k
  parsePublicKey := parsePublic
  parseCrt := parseCert
  canRsa := Pk.isRsa
  canPss := Pk.isRsa
  canEcdsa pk := !pk.isRsa
  bitlen := Pk.bits
  isRsa := Pk.isRsa
  isEc pk := !pk.isRsa
  pkSign pk md h :=
    match pk with
    | .rsa n _ (some d) _ => let len := (pk.bits + 7) / 8; some (natBe len (powMod (beNat (emsaPkcs1 len md h)) d n))
    | _ => none
  pkVerify pk md h sig :=
    match pk with
    | .rsa n e _ _ =>
      let len := (pk.bits + 7) / 8
      sig.length == len && decide (beNat sig < n) && natBe len (powMod (beNat sig) e n) == emsaPkcs1 len md h
    | _ => false
  rsaLen pk := (pk.bits + 7) / 8
  pssSign pk md h :=
    match pk with
    | .rsa n _ (some d) _ =>
      some (natBe ((pk.bits + 7) / 8) (powMod (beNat (emsaPss (pk.bits - 1) md h (sha md (h ++ [1])))) d n))
    | _ => none
  pssVerify pk md h sig :=
    match pk with
    | .rsa n e _ _ => decide (beNat sig < n) && emsaPssOk (pk.bits - 1) md h (natBe ((pk.bits + 6) / 8) (powMod (beNat sig) e n))
    | _ => false
  ecOk pk := !pk.isRsa
  grpId pk := match pk with | .ec c _ _ => c.id | _ => .other 0
  ecdsaSign pk h := match pk with | .ec c (some d) _ => c.sign d h | _ => none
  ecdsaVerify pk h r s := match pk with | .ec c _ q => c.verify q h r s | _ => false
  edSign := edSign
  edVerify := edVerify

/-- JSON numbers: 1 for an integer, 2 for another number, 0 for anything else. -/
def jsonNum (t : Bytes) : Nat :=
  let u := if t.head? = some 45 then t.drop 1 else t
  let int := u.takeWhile isDigit
  let r := u.dropWhile isDigit
  let (frac, r) := if r.head? = some 46 then ((r.drop 1).takeWhile isDigit, (r.drop 1).dropWhile isDigit) else ([48], r)
  let (ex, r) :=
    if r.head? = some 101 ∨ r.head? = some 69 then
      let r := r.drop 1
      let r := if r.head? = some 45 ∨ r.head? = some 43 then r.drop 1 else r
      (r.takeWhile isDigit, r.dropWhile isDigit)
    else ([48], r)
  if int.isEmpty || frac.isEmpty || ex.isEmpty || !r.isEmpty then 0 else if u.all isDigit then 1 else 2

/-- The parameters of the model: x86-64 Linux, EdDSA enabled, at a given time. -/
def real (now : Int) : Env where
  charSigned := true
  eddsa := true
  smallStack := false
  now := now
  garbage _ := ⟨.undefined, 0, 0⟩
  checknum := jsonNum
  crypto := realCrypto

end L8w8jwt.Check
