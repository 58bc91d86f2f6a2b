import Verif.Spec.Encode
import Verif.Proofs.Encode
/-!
# A small concrete environment, for examples and counterexamples

Not a model of anything: a computable stand-in for mbedTLS/ed25519 that satisfies the contract `CryptoOk`.
-/

namespace L8w8jwt
open Spec

/-- A parsed toy key. -/
structure ToyPk where
  rsa : Bool
  bits : Nat
  curve : Curve
  deriving DecidableEq

/-- The first letter of a toy key text says what it is. -/
def toyParse (k : Bytes) : Option ToyPk :=
  match k with
  | 82 :: _ => some ⟨true, 2048, .other 0⟩          -- R: RSA 2048
  | 83 :: _ => some ⟨true, 2049, .other 0⟩          -- S: RSA 2049
  | 87 :: _ => some ⟨true, 1024, .other 0⟩          -- W: weak RSA
  | 80 :: _ => some ⟨false, 256, .secp256r1⟩        -- P: P-256
  | 75 :: _ => some ⟨false, 256, .secp256k1⟩        -- K: secp256k1
  | 81 :: _ => some ⟨false, 521, .secp521r1⟩        -- Q: P-521
  | _ => none

/-- A toy checksum of `n` bytes. -/
def toySum (n : Nat) (m : Bytes) : Bytes := be n (m.foldl (fun a c => (a * 31 + c.toNat + 1) % 256 ^ n) 7)

/-- Toy primitives. -/
def toyCrypto : Crypto where
  PK := ToyPk
  seedOk := true
  hmac md k m := some (toySum md.len (k ++ 1 :: m))
  md md m := some (toySum md.len m)
  parseKey k _ := toyParse k
  parsePublicKey k := toyParse k
  parseCrt k := toyParse k
  canRsa pk := pk.rsa
  canPss pk := pk.rsa
  canEcdsa pk := !pk.rsa
  bitlen pk := min pk.bits 32000
  isRsa pk := pk.rsa
  isEc pk := !pk.rsa
  pkSign pk _ h := some (h ++ be 4 pk.bits)
  pkVerify pk _ h sig := sig == h ++ be 4 pk.bits
  rsaLen pk := (min pk.bits 32000 + 7) / 8
  pssSign pk _ h := some (toySum ((min pk.bits 32000 + 7) / 8) h)
  pssVerify pk _ h sig := sig == toySum ((min pk.bits 32000 + 7) / 8) h
  ecOk _ := true
  grpId pk := pk.curve
  ecdsaSign _ h := some (h.foldl (fun a c => a * 2 + c.toNat) 0, 5)
  ecdsaVerify _ h r s := r == h.foldl (fun a c => a * 2 + c.toNat) 0 && s == 5
  edSign m k := toySum 64 (k.take 32 ++ 2 :: m)
  edVerify sig m pk := sig == toySum 64 (pk ++ 2 :: m)

/-- Toy build: 64-bit platform with signed `char`, EdDSA enabled. -/
def toy : Env where
  charSigned := true
  eddsa := true
  smallStack := false
  now := 1000
  garbage _ := ⟨.undefined, 0, 0⟩
  checknum t :=
    let u := if t.head? = some 45 then t.drop 1 else t
    if u.isEmpty then 0 else if u.all isDigit then 1
    else if isDigit (u.headD 0) && u.all (fun c => isDigit c || (str ".eE+-").contains c) then 2 else 0
  crypto := toyCrypto

theorem toyOk : CryptoOk toyCrypto where
  hmac md k m t h := by simp only [toyCrypto, Option.some.injEq] at h; subst h; exact be_length _ _
  md md m t h := by simp only [toyCrypto, Option.some.injEq] at h; subst h; exact be_length _ _
  sign pk md m t h := by
    simp only [toyCrypto, Option.some.injEq] at h
    intro e
    have := congrArg List.length h
    rw [e] at this
    simp [be_length] at this
  ed m k := be_length _ _
  pss pk md m t h := by simp only [toyCrypto, Option.some.injEq] at h; subst h; exact be_length _ _
  rsaLen pk _ := ⟨rfl, by simp only [toyCrypto]; omega⟩
  canPss pk h := h
  canEcdsa pk h := h

/-- A NUL-terminated string argument. -/
def cs (t : String) : Ptr := some ⟨0, str t ++ [0]⟩

/-- A toy parameter struct: HS256 with a short key. -/
def toyParams : EncParams :=
  { alg := 0, secretKey := some (str "secret" ++ [0]), secretKeyLength := 6, outNull := false, outLengthNull := false }

/-- The token text of a successful encoding without allocation failures. -/
def tokenOf (env : Env) (p : EncParams) : Option Bytes :=
  match encode env (some p) calm heap0 with
  | .ok ({ rc := 0, out := some (some b), .. }, _) => some b.mem
  | _ => none

end L8w8jwt
