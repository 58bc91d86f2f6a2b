import Verif.Model.CLib
/-!
# jsmn (lib/jsmn, git submodule, not in /repo)

The tokenizer used by src/decode.c:233 and src/decode.c:253, modelled from the upstream source (zserge/jsmn 1.1, built
without `JSMN_STRICT` and `JSMN_PARENT_LINKS`; src/decode.c:21 only defines `JSMN_STATIC`).

Simplifications: the fields `size` of a token and `toksuper` of the parser are dropped (l8w8jwt never reads them and they
have no influence on anything else in non-strict mode); the nested scanning loops of `jsmn_parse_string` and
`jsmn_parse_primitive` are written as one state machine that consumes one character at a time (structural recursion over
the text); positions do not overflow `int` (texts shorter than 2 GiB).
-/

namespace L8w8jwt

/-- `jsmntype_t`; `other` stands for any value that is not an enumerator (only possible in uninitialised memory). -/
inductive JType where
  | undefined | object | array | string | primitive | other
  deriving DecidableEq, Repr

/-- `jsmntok_t` (without `size`). -/
structure Tok where
  type : JType
  start : Int
  end_ : Int
  deriving DecidableEq, Repr

/-- `enum jsmnerr`. -/
inductive JErr where
  | nomem | inval | part
  deriving DecidableEq, Repr

/-- Inside a string: after an ordinary character, after a backslash, or within `\uXXXX` with `n + 1` digits to come. -/
inductive SMode where
  | plain | esc | hex (n : Nat)
  deriving DecidableEq, Repr

/-- Where the tokenizer is: between tokens (`jsmn_parse`), in a string (`jsmn_parse_string`, `start` is the position
after the quote), in a primitive (`jsmn_parse_primitive`). -/
inductive JMode where
  | main
  | str (start : Nat) (m : SMode)
  | prim (start : Nat)
  deriving DecidableEq, Repr

/-- Tokenizer state: `count` of `jsmn_parse` and the tokens so far, newest first (empty in the counting pass). -/
structure JState where
  count : Nat
  toks : List Tok
  deriving DecidableEq, Repr

/-- `jsmn_alloc_token` + `jsmn_fill_token`: in the counting pass (`cap = none`) nothing is stored. -/
def jAlloc (cap : Option Nat) (st : JState) (t : Tok) : Except JErr JState :=
  match cap with
  | none => .ok { st with count := st.count + 1 }
  | some n => if n ≤ st.toks.length then .error .nomem else .ok { count := st.count + 1, toks := t :: st.toks }

/-- `jsmn_parse`, case `'}'`/`']'`: the newest open token (`start != -1 && end == -1`) must have the right type and gets
its `end`. -/
def jClose (type : JType) (endPos : Nat) : List Tok → Except JErr (List Tok)
  | [] => .error .inval
  | t :: ts =>
    if t.start ≠ -1 ∧ t.end_ = -1 then
      if t.type ≠ type then .error .inval else .ok ({ t with end_ := endPos } :: ts)
    else
      match jClose type endPos ts with
      | .error e => .error e
      | .ok ts' => .ok (t :: ts')

/-- `jsmn_parse`: one character between tokens. -/
def jMain (cap : Option Nat) (c : UInt8) (pos : Nat) (st : JState) : Except JErr (JMode × JState) :=
  if c = 123 ∨ c = 91 then
    match jAlloc cap st ⟨if c = 123 then .object else .array, pos, -1⟩ with
    | .error e => .error e
    | .ok st => .ok (.main, st)
  else if c = 125 ∨ c = 93 then
    match cap with
    | none => .ok (.main, st)
    | some _ =>
      match jClose (if c = 125 then .object else .array) (pos + 1) st.toks with
      | .error e => .error e
      | .ok ts => .ok (.main, { st with toks := ts })
  else if c = 34 then .ok (.str (pos + 1) .plain, st)
  else if c = 9 ∨ c = 13 ∨ c = 10 ∨ c = 32 ∨ c = 58 ∨ c = 44 then .ok (.main, st)
  else if c < 32 ∨ 127 ≤ c then .error .inval
  else .ok (.prim pos, st)

/-- `jsmn_parse_primitive`: the characters that end a primitive. -/
def primStop (c : UInt8) : Bool := c = 58 || c = 9 || c = 13 || c = 10 || c = 32 || c = 44 || c = 93 || c = 125

/-- `jsmn_parse_string`: characters allowed after a backslash (other than `u`). -/
def escOk (c : UInt8) : Bool :=
  c = 34 || c = 47 || c = 92 || c = 98 || c = 102 || c = 114 || c = 110 || c = 116

/-- `jsmn_parse_string`: hexadecimal digits. -/
def isHex (c : UInt8) : Bool := (48 ≤ c && c ≤ 57) || (65 ≤ c && c ≤ 70) || (97 ≤ c && c ≤ 102)

/-- One character of the text (not NUL). -/
def jStep (cap : Option Nat) (c : UInt8) (pos : Nat) : JMode → JState → Except JErr (JMode × JState)
  | .main, st => jMain cap c pos st
  | .str start .plain, st =>
    if c = 34 then
      match jAlloc cap st ⟨.string, start, pos⟩ with
      | .error e => .error e
      | .ok st => .ok (.main, st)
    else if c = 92 then .ok (.str start .esc, st)
    else .ok (.str start .plain, st)
  | .str start .esc, st =>
    if escOk c then .ok (.str start .plain, st)
    else if c = 117 then .ok (.str start (.hex 3), st)
    else .error .inval
  | .str start (.hex n), st =>
    if isHex c then .ok (.str start (match n with | 0 => .plain | k + 1 => .hex k), st) else .error .inval
  | .prim start, st =>
    if primStop c then
      match jAlloc cap st ⟨.primitive, start, pos⟩ with
      | .error e => .error e
      | .ok st => jMain cap c pos st
    else if c < 32 ∨ 127 ≤ c then .error .inval
    else .ok (.prim start, st)

/-- End of the text (`pos == len` or NUL). `nul`: it ended with a NUL (a backslash before it is then an error). A
primitive is complete, a string is not; in the storing pass no token may be open. -/
def jEnd (cap : Option Nat) (pos : Nat) (nul : Bool) : JMode → JState → Except JErr JState
  | .main, st => if st.toks.any (fun t => t.start != -1 && t.end_ == -1) then .error .part else .ok st
  | .str _ .esc, _ => if nul then .error .inval else .error .part
  | .str _ _, _ => .error .part
  | .prim start, st =>
    match jAlloc cap st ⟨.primitive, start, pos⟩ with
    | .error e => .error e
    | .ok st => if st.toks.any (fun t => t.start != -1 && t.end_ == -1) then .error .part else .ok st

/-- The loop over the text. -/
def jLoop (cap : Option Nat) : Bytes → Nat → JMode → JState → Except JErr JState
  | [], pos, m, st => jEnd cap pos false m st
  | c :: t, pos, m, st =>
    if c = 0 then jEnd cap pos true m st
    else
      match jStep cap c pos m st with
      | .error e => .error e
      | .ok (m, st) => jLoop cap t (pos + 1) m st

/-- `jsmn_init` + `jsmn_parse(&parser, js, len, NULL, 0)`: the number of tokens. `js` is the text of `len` bytes. -/
def jsmnCount (js : Bytes) : Except JErr Nat :=
  match jLoop none js 0 .main ⟨0, []⟩ with
  | .error e => .error e
  | .ok st => .ok st.count

/-- `jsmn_init` + `jsmn_parse(&parser, js, len, tokens, cap)`: the returned count and the tokens stored, in order. -/
def jsmnParse (js : Bytes) (cap : Nat) : Except JErr (Nat × List Tok) :=
  match jLoop (some cap) js 0 .main ⟨0, []⟩ with
  | .error e => .error e
  | .ok st => .ok (st.count, st.toks.reverse)

end L8w8jwt
