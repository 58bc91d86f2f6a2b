import Verif.Model.Env
/-!
# SHA-2 and HMAC (FIPS 180-4, RFC 2104)

Not a model of mbedTLS: an implementation of the standards, to run the model on recorded tokens (`Verif/Check/Recorded.lean`) and on
the test suite of the repository (`Verif/Check/RepoTests.lean`). No theorem depends on it.
-/

namespace L8w8jwt.Check

/-- Evaluate the number before going on (for the kernel, which does not evaluate arguments). -/
def strict {α : Type} (n : Nat) (f : Nat → α) : α :=
  match n with
  | 0 => f 0
  | m + 1 => f (m + 1)

/-- Word size, number of bytes of a word, rotations and shifts, constants. -/
structure Sha where
  w : Nat
  big0 : Nat × Nat × Nat
  big1 : Nat × Nat × Nat
  small0 : Nat × Nat × Nat
  small1 : Nat × Nat × Nat
  k : List Nat
  h0 : List Nat

def rotr (w x n : Nat) : Nat := ((x >>> n) ||| (x <<< (w - n))) % 2 ^ w

def sum3 (w : Nat) (r : Nat × Nat × Nat) (x : Nat) : Nat := (rotr w x r.1 ^^^ rotr w x r.2.1) ^^^ rotr w x r.2.2

def sig3 (w : Nat) (r : Nat × Nat × Nat) (x : Nat) : Nat := (rotr w x r.1 ^^^ rotr w x r.2.1) ^^^ (x >>> r.2.2)

/-- One round on the working variables. -/
def Sha.round (c : Sha) (st : List Nat) (k w : Nat) : List Nat :=
  match st with
  | [a, b, cc, d, e, f, g, h] =>
    strict ((h + sum3 c.w c.big1 e + ((e &&& f) ^^^ ((2 ^ c.w - 1 - e) &&& g)) + k + w) % 2 ^ c.w) fun t1 =>
    strict ((d + t1) % 2 ^ c.w) fun e' =>
    strict ((t1 + sum3 c.w c.big0 a + (((a &&& b) ^^^ (a &&& cc)) ^^^ (b &&& cc))) % 2 ^ c.w) fun a' =>
    [a', a, b, cc, e', e, f, g]
  | _ => st

/-- All rounds; `ws` are the next sixteen words of the schedule. -/
def Sha.rounds (c : Sha) : List Nat → List Nat → List Nat → List Nat
  | [], _, st => st
  | k :: ks, ws, st =>
    match ws with
    | w0 :: rest =>
      strict ((sig3 c.w c.small1 (rest.getD 13 0) + rest.getD 8 0 + sig3 c.w c.small0 (rest.getD 0 0) + w0) % 2 ^ c.w) fun w16 =>
      c.rounds ks (rest ++ [w16]) (c.round st k w0)
    | [] => st

/-- Big-endian number. -/
def beNat (bs : Bytes) : Nat := bs.foldl (fun a b => strict a fun a => a * 256 + b.toNat) 0

/-- The first `n` groups of `size` bytes, as numbers. -/
def wordsOf (size : Nat) : Nat → Bytes → List Nat
  | 0, _ => []
  | n + 1, bs => strict (beNat (bs.take size)) fun x => x :: wordsOf size n (bs.drop size)

def addWords (w : Nat) : List Nat → List Nat → List Nat
  | x :: xs, y :: ys => strict ((x + y) % 2 ^ w) fun z => z :: addWords w xs ys
  | _, _ => []

/-- The blocks of a padded message. -/
def Sha.blocks (c : Sha) : Nat → Bytes → List Nat → List Nat
  | 0, _, st => st
  | n + 1, bs, st => c.blocks n (bs.drop (2 * c.w)) (addWords c.w st (c.rounds c.k (wordsOf (c.w / 8) 16 bs) st))

/-- `n` big-endian bytes of a number. -/
def natBe : Nat → Nat → Bytes
  | 0, _ => []
  | n + 1, x => natBe n (x / 256) ++ [UInt8.ofNat (x % 256)]

/-- The message with its padding (FIPS 180-4, 5.1). -/
def Sha.pad (c : Sha) (m : Bytes) : Bytes :=
  let block := 2 * c.w
  let tail := c.w / 4
  m ++ (0x80 :: List.replicate ((block - (m.length + 1 + tail) % block) % block) 0) ++ natBe tail (8 * m.length)

/-- The hash of a message. -/
def Sha.hash (c : Sha) (m : Bytes) : Bytes :=
  let p := c.pad m
  (c.blocks (p.length / (2 * c.w)) p c.h0).flatMap (natBe (c.w / 8))

def k256 : List Nat :=
   [0x428a2f98, 0x71374491, 0xb5c0fbcf, 0xe9b5dba5, 0x3956c25b, 0x59f111f1, 0x923f82a4, 0xab1c5ed5,
    0xd807aa98, 0x12835b01, 0x243185be, 0x550c7dc3, 0x72be5d74, 0x80deb1fe, 0x9bdc06a7, 0xc19bf174,
    0xe49b69c1, 0xefbe4786, 0xfc19dc6, 0x240ca1cc, 0x2de92c6f, 0x4a7484aa, 0x5cb0a9dc, 0x76f988da,
    0x983e5152, 0xa831c66d, 0xb00327c8, 0xbf597fc7, 0xc6e00bf3, 0xd5a79147, 0x6ca6351, 0x14292967,
    0x27b70a85, 0x2e1b2138, 0x4d2c6dfc, 0x53380d13, 0x650a7354, 0x766a0abb, 0x81c2c92e, 0x92722c85,
    0xa2bfe8a1, 0xa81a664b, 0xc24b8b70, 0xc76c51a3, 0xd192e819, 0xd6990624, 0xf40e3585, 0x106aa070,
    0x19a4c116, 0x1e376c08, 0x2748774c, 0x34b0bcb5, 0x391c0cb3, 0x4ed8aa4a, 0x5b9cca4f, 0x682e6ff3,
    0x748f82ee, 0x78a5636f, 0x84c87814, 0x8cc70208, 0x90befffa, 0xa4506ceb, 0xbef9a3f7, 0xc67178f2]

def k512 : List Nat :=
   [0x428a2f98d728ae22, 0x7137449123ef65cd, 0xb5c0fbcfec4d3b2f, 0xe9b5dba58189dbbc, 0x3956c25bf348b538,
    0x59f111f1b605d019, 0x923f82a4af194f9b, 0xab1c5ed5da6d8118, 0xd807aa98a3030242, 0x12835b0145706fbe,
    0x243185be4ee4b28c, 0x550c7dc3d5ffb4e2, 0x72be5d74f27b896f, 0x80deb1fe3b1696b1, 0x9bdc06a725c71235,
    0xc19bf174cf692694, 0xe49b69c19ef14ad2, 0xefbe4786384f25e3, 0xfc19dc68b8cd5b5, 0x240ca1cc77ac9c65,
    0x2de92c6f592b0275, 0x4a7484aa6ea6e483, 0x5cb0a9dcbd41fbd4, 0x76f988da831153b5, 0x983e5152ee66dfab,
    0xa831c66d2db43210, 0xb00327c898fb213f, 0xbf597fc7beef0ee4, 0xc6e00bf33da88fc2, 0xd5a79147930aa725,
    0x6ca6351e003826f, 0x142929670a0e6e70, 0x27b70a8546d22ffc, 0x2e1b21385c26c926, 0x4d2c6dfc5ac42aed,
    0x53380d139d95b3df, 0x650a73548baf63de, 0x766a0abb3c77b2a8, 0x81c2c92e47edaee6, 0x92722c851482353b,
    0xa2bfe8a14cf10364, 0xa81a664bbc423001, 0xc24b8b70d0f89791, 0xc76c51a30654be30, 0xd192e819d6ef5218,
    0xd69906245565a910, 0xf40e35855771202a, 0x106aa07032bbd1b8, 0x19a4c116b8d2d0c8, 0x1e376c085141ab53,
    0x2748774cdf8eeb99, 0x34b0bcb5e19b48a8, 0x391c0cb3c5c95a63, 0x4ed8aa4ae3418acb, 0x5b9cca4f7763e373,
    0x682e6ff3d6b2b8a3, 0x748f82ee5defb2fc, 0x78a5636f43172f60, 0x84c87814a1f0ab72, 0x8cc702081a6439ec,
    0x90befffa23631e28, 0xa4506cebde82bde9, 0xbef9a3f7b2c67915, 0xc67178f2e372532b, 0xca273eceea26619c,
    0xd186b8c721c0c207, 0xeada7dd6cde0eb1e, 0xf57d4f7fee6ed178, 0x6f067aa72176fba, 0xa637dc5a2c898a6,
    0x113f9804bef90dae, 0x1b710b35131c471b, 0x28db77f523047d84, 0x32caab7b40c72493, 0x3c9ebe0a15c9bebc,
    0x431d67c49c100d4c, 0x4cc5d4becb3e42b6, 0x597f299cfc657e2a, 0x5fcb6fab3ad6faec, 0x6c44198c4a475817]

def sha256 : Sha where
  w := 32
  big0 := (2, 13, 22)
  big1 := (6, 11, 25)
  small0 := (7, 18, 3)
  small1 := (17, 19, 10)
  k := k256
  h0 := [0x6a09e667, 0xbb67ae85, 0x3c6ef372, 0xa54ff53a, 0x510e527f, 0x9b05688c, 0x1f83d9ab, 0x5be0cd19]

def sha512 : Sha where
  w := 64
  big0 := (28, 34, 39)
  big1 := (14, 18, 41)
  small0 := (1, 8, 7)
  small1 := (19, 61, 6)
  k := k512
  h0 :=
   [0x6a09e667f3bcc908, 0xbb67ae8584caa73b, 0x3c6ef372fe94f82b, 0xa54ff53a5f1d36f1,
    0x510e527fade682d1, 0x9b05688c2b3e6c1f, 0x1f83d9abfb41bd6b, 0x5be0cd19137e2179]

def sha384 : Sha where
  w := 64
  big0 := sha512.big0
  big1 := sha512.big1
  small0 := sha512.small0
  small1 := sha512.small1
  k := k512
  h0 :=
   [0xcbbb9d5dc1059ed8, 0x629a292a367cd507, 0x9159015a3070dd17, 0x152fecd8f70e5939,
    0x67332667ffc00b31, 0x8eb44a8768581511, 0xdb0c2e0d64f98fa7, 0x47b5481dbefa4fa4]

/-- The hash functions used by l8w8jwt. -/
def sha : Md → Bytes → Bytes
  | .sha256, m => sha256.hash m
  | .sha384, m => (sha384.hash m).take 48
  | .sha512, m => sha512.hash m

/-- HMAC (RFC 2104). -/
def hmac (md : Md) (key m : Bytes) : Bytes :=
  let block := match md with | .sha256 => 64 | _ => 128
  let k := if block < key.length then sha md key else key
  let k := k ++ List.replicate (block - k.length) 0
  sha md (k.map (· ^^^ 0x5c) ++ sha md (k.map (· ^^^ 0x36) ++ m))

end L8w8jwt.Check
