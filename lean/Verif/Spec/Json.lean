import Verif.Model.CLib
import Verif.Spec.Util
/-!
# JSON texts (RFC 8259), independent of the model
-/

namespace L8w8jwt.Spec

/-- Lower case hexadecimal digit. -/
def hexNib (n : Nat) : UInt8 := if n < 10 then UInt8.ofNat (48 + n) else UInt8.ofNat (87 + n)

/-- The escape sequence documented for a character of a claim string: RFC 8259 section 7 two-character escapes for the
quote, the reverse solidus, the solidus and `\b \f \n \r \t`, `\u00XX` for the other control characters and for DEL; all
other bytes are copied. -/
def escapeByte (c : UInt8) : Bytes :=
  if c = 34 then str "\\\""
  else if c = 92 then str "\\\\"
  else if c = 47 then str "\\/"
  else if c = 8 then str "\\b"
  else if c = 12 then str "\\f"
  else if c = 10 then str "\\n"
  else if c = 13 then str "\\r"
  else if c = 9 then str "\\t"
  else if c < 32 ∨ c = 127 then str "\\u00" ++ [hexNib (c.toNat / 16), hexNib (c.toNat % 16)]
  else [c]

/-- The escaped form of a string. -/
def escape (s : Bytes) : Bytes := s.flatMap escapeByte

/-- UTF-8 encoding of a code point of the basic multilingual plane. (Surrogates are encoded separately; they do not occur in
the texts considered here.) -/
def utf8 (n : Nat) : Bytes :=
  if n < 128 then [UInt8.ofNat n]
  else if n < 2048 then [UInt8.ofNat (192 + n / 64), UInt8.ofNat (128 + n % 64)]
  else [UInt8.ofNat (224 + n / 4096), UInt8.ofNat (128 + n / 64 % 64), UInt8.ofNat (128 + n % 64)]

/-- The character denoted by a two-character escape sequence, by its second character. -/
def simpleEscape (e : UInt8) : Option UInt8 :=
  if e = 34 then some 34 else if e = 92 then some 92 else if e = 47 then some 47 else if e = 98 then some 8
  else if e = 102 then some 12 else if e = 110 then some 10 else if e = 114 then some 13 else if e = 116 then some 9
  else none

/-- A JSON lexer for strings (RFC 8259 section 7), started after the opening quotation mark: the string's value and the
text after the closing quotation mark; `none` if the text does not start with a valid string. -/
def lexString : Bytes → Option (Bytes × Bytes)
  | [] => none
  | c :: t =>
    if c = 34 then some ([], t)
    else if c = 92 then
      match t with
      | [] => none
      | e :: t =>
        if e = 117 then
          match t with
          | w :: x :: y :: z :: t =>
            match hexDigit w, hexDigit x, hexDigit y, hexDigit z, lexString t with
            | some w, some x, some y, some z, some (v, r) => some (utf8 (w * 4096 + x * 256 + y * 16 + z) ++ v, r)
            | _, _, _, _, _ => none
          | _ => none
        else
          match simpleEscape e, lexString t with
          | some x, some (v, r) => some (x :: v, r)
          | _, _ => none
    else if c < 32 then none
    else (lexString t).map fun (v, r) => (c :: v, r)

end L8w8jwt.Spec
