import Lean
import Verif.C.Syntax
/-!
# Reading C text

A preprocessor, lexer, parser and type checker for the subset of C that /repo/src uses. It runs when the modules below are
elaborated and produces terms of `Verif/C/Syntax.lean`; the proofs are about these terms. The command

`c_unit ns : text`

reads the text (a `String`) and defines `ns.f : CFun` for every function `f` in it (with the loops as separate definitions
`ns.f.loop1`, `ns.f.loop2`, …, numbered in the order of their ends), and `ns.globals` with its `static` tables.
-/

namespace L8w8jwt.C.Parse

/-- Tokens. -/
inductive Tok where
  | id (s : String)
  | num (v : Nat) (t : ITy)
  | chr (v : Nat)
  | str (s : List UInt8)
  | p (s : String)
  deriving BEq, Repr, Inhabited

/-- C types. -/
inductive CTy where
  | void
  | int (t : ITy)
  | ptr (t : CTy)
  | arr (t : CTy) (n : Nat)
  | struct (s : String)
  deriving BEq, Repr, Inhabited

/-! ## Preprocessing and lexing -/

/-- Remove comments, keep everything else. -/
partial def stripComments : List Char → List Char
  | [] => []
  | '/' :: '*' :: r => ' ' :: stripComments (skipBlock r)
  | '/' :: '/' :: r => stripComments (r.dropWhile (· != '\n'))
  | '"' :: r => '"' :: inStr '"' r
  | '\'' :: r => '\'' :: inStr '\'' r
  | c :: r => c :: stripComments r
where
  skipBlock : List Char → List Char
    | '*' :: '/' :: r => r
    | c :: r => (if c == '\n' then ['\n'] else []) ++ skipBlock r
    | [] => []
  inStr (q : Char) : List Char → List Char
    | '\\' :: c :: r => '\\' :: c :: inStr q r
    | c :: r => if c == q then c :: stripComments r else c :: inStr q r
    | [] => []

def isIdStart (c : Char) : Bool := c.isAlpha || c == '_'
def isIdChar (c : Char) : Bool := c.isAlphanum || c == '_'

def escChar : Char → Except String Nat
  | 'n' => .ok 10 | 't' => .ok 9 | 'r' => .ok 13 | 'b' => .ok 8 | 'f' => .ok 12
  | '0' => .ok 0 | '\\' => .ok 92 | '\'' => .ok 39 | '"' => .ok 34
  | c => .error s!"unknown escape {c}"

def hexVal (c : Char) : Nat :=
  if c.isDigit then c.toNat - 48 else if 'a' ≤ c && c ≤ 'f' then c.toNat - 87 else c.toNat - 55

def puncts : List String :=
  ["<<=", ">>=", "...", "->", "++", "--", "<<", ">>", "<=", ">=", "==", "!=", "&&", "||", "+=", "-=", "*=", "/=", "|=", "&=",
   "(", ")", "{", "}", "[", "]", ";", ",", ".", "+", "-", "*", "/", "%", "&", "|", "^", "~", "!", "<", ">", "=", "?", ":"]

partial def lexStr : List Char → Except String (List UInt8 × List Char)
  | '"' :: r => .ok ([], r)
  | '\\' :: c :: r => do
    let v ← escChar c
    let (s, r) ← lexStr r
    .ok (UInt8.ofNat v :: s, r)
  | c :: r => do
    let (s, r) ← lexStr r
    .ok (UInt8.ofNat c.toNat :: s, r)
  | [] => .error "unterminated string"

partial def lex : List Char → Except String (List Tok)
  | [] => .ok []
  | c :: r => do
    if c.isWhitespace then lex r
    else if isIdStart c then
      let w := (c :: r).takeWhile isIdChar
      let t ← lex ((c :: r).dropWhile isIdChar)
      .ok (.id (String.ofList w) :: t)
    else if c == '0' && (r.head? == some 'x' || r.head? == some 'X') then
      let ds := (r.drop 1).takeWhile (fun d => d.isDigit || ('a' ≤ d && d ≤ 'f') || ('A' ≤ d && d ≤ 'F'))
      let t ← lex ((r.drop 1).drop ds.length)
      .ok (.num (ds.foldl (fun a d => a * 16 + hexVal d) 0) .i32 :: t)
    else if c.isDigit then
      let ds := (c :: r).takeWhile Char.isDigit
      let rest := (c :: r).drop ds.length
      let suf := rest.takeWhile Char.isAlpha
      let t ← lex (rest.drop suf.length)
      let ty : ITy := match (String.ofList suf).toUpper with
        | "U" => .u32
        | "UL" => .u64
        | "ULL" => .u64
        | "LL" => .i64
        | "L" => .i64
        | _ => .i32
      .ok (.num (ds.foldl (fun a d => a * 10 + (d.toNat - 48)) 0) ty :: t)
    else if c == '\'' then
      match r with
      | '\\' :: e :: '\'' :: r => do
        let v ← escChar e
        let t ← lex r
        .ok (.chr v :: t)
      | e :: '\'' :: r => do
        let t ← lex r
        .ok (.chr e.toNat :: t)
      | _ => .error "bad character constant"
    else if c == '"' then
      let (s, r) ← lexStr r
      let t ← lex r
      .ok (.str s :: t)
    else
      match puncts.find? (fun q => q.toList.isPrefixOf (c :: r)) with
      | some q => do
        let t ← lex ((c :: r).drop q.length)
        .ok (.p q :: t)
      | none => .error s!"unexpected character {c}"

abbrev Macros := List (String × List Tok)

partial def expand (ms : Macros) : List Tok → List Tok
  | [] => []
  | .id s :: r =>
    match ms.lookup s with
    | some ts => expand (ms.filter (·.1 != s)) ts ++ expand ms r
    | none => .id s :: expand ms r
  | t :: r => t :: expand ms r

/-- Preprocess: object-like macros, `#if NAME`, `#if !NAME`, `#ifdef`, `#ifndef`, `#else`, `#endif`; `#include` is
ignored. `conds`: the enclosing conditions (is the current branch taken?). -/
partial def preprocess (ms : Macros) (conds : List Bool) : List String → Except String (List Tok)
  | [] => .ok []
  | l :: ls => do
    let live := conds.all id
    let w := l.trimAscii.toString
    if w.startsWith "#" then
      let toks ← lex (w.drop 1).toString.toList
      match toks with
      | .id "if" :: .p "!" :: .id n :: _ => preprocess ms ((!(truthOf n)) :: conds) ls
      | .id "if" :: .id "defined" :: _ => preprocess ms (false :: conds) ls
      | .id "if" :: .id n :: _ => preprocess ms (truthOf n :: conds) ls
      | .id "ifdef" :: .id n :: _ => preprocess ms ((ms.lookup n).isSome :: conds) ls
      | .id "ifndef" :: .id n :: _ => preprocess ms ((ms.lookup n).isNone :: conds) ls
      | .id "else" :: _ =>
        match conds with
        | b :: cs => preprocess ms ((!b) :: cs) ls
        | [] => .error "#else"
      | .id "endif" :: _ => preprocess ms (conds.drop 1) ls
      | .id "define" :: .id n :: body =>
        if live then preprocess ((n, body) :: ms) conds ls else preprocess ms conds ls
      | .id "undef" :: .id n :: _ => preprocess (ms.filter (·.1 != n)) conds ls
      | .id "include" :: _ => preprocess ms conds ls
      | _ => .error s!"directive {w}"
    else if live then do
      let run := ls.takeWhile (fun x => !(x.trimAscii.toString.startsWith "#"))
      let toks ← lex ("\n".intercalate (l :: run)).toList
      let r ← preprocess ms conds (ls.drop run.length)
      .ok (expand ms toks ++ r)
    else preprocess ms conds ls
where
  truthOf (n : String) : Bool :=
    match ms.lookup n with
    | some [.num v _] => v != 0
    | _ => false

/-! ## Parsing and type checking -/

/-- A variable: slot and whether it lives in memory; or a `static` table. -/
inductive Var where
  | reg (i : Nat) (t : CTy)
  | mem (i : Nat) (t : CTy)
  | glob (name : String) (t : CTy)
  deriving Inhabited

/-- Parser state. -/
structure PS where
  toks : List Tok
  scopes : List (List (String × Var)) := []
  globs : List (String × Var) := []
  tables : List (String × List Val) := []
  slots : Nat := 0
  structs : List (String × List (String × CTy)) := []
  typedefs : List (String × CTy) := []
  enums : List (String × Int) := []
  protos : List (String × CTy × List CTy) := []
  addrTaken : List String := []
  retTy : CTy := .void
  fname : String := ""
  deriving Inhabited

abbrev P := StateT PS (Except String)

def err {α : Type} (m : String) : P α := do
  let s ← get
  throw s!"{s.fname}: {m}; at {repr (s.toks.take 8)}"

def peek : P (Option Tok) := do return (← get).toks.head?
def peek2 : P (Option Tok) := do return ((← get).toks.drop 1).head?
def adv : P Unit := modify fun s => { s with toks := s.toks.drop 1 }
def isP (q : String) : P Bool := do return (← peek) == some (.p q)
def isId (q : String) : P Bool := do return (← peek) == some (.id q)
def eat (q : String) : P Unit := do if ← isP q then adv else err s!"expected {q}"
def eatId : P String := do
  match ← peek with
  | some (.id s) => adv; return s
  | _ => err "expected identifier"
def tryP (q : String) : P Bool := do if ← isP q then adv; return true else return false

def specWords : List String :=
  ["const", "static", "inline", "unsigned", "signed", "char", "int", "long", "size_t", "uint8_t", "uint64_t", "struct",
   "enum", "bool", "void", "extern"]

def isTypeStart : P Bool := do
  match ← peek with
  | some (.id s) => return specWords.contains s || ((← get).typedefs.lookup s).isSome
  | _ => return false

/-- Declaration specifiers: the type and whether `static` occurs. -/
partial def specs : P (CTy × Bool) := do
  let rec go (st uns sgn : Bool) (longs : Nat) (base : Option CTy) : P (CTy × Bool) := do
    let fin : P (CTy × Bool) :=
      match base with
      | some (.int .char) => return (.int (if uns then .u8 else if sgn then .i8 else .char), st)
      | some (.int .i32) =>
        return (.int (if longs > 0 then (if uns then .u64 else .i64) else if uns then .u32 else .i32), st)
      | some t => return (t, st)
      | none =>
        if uns || sgn || longs > 0 then
          return (.int (if longs > 0 then (if uns then .u64 else .i64) else if uns then .u32 else .i32), st)
        else err "expected type"
    match ← peek with
    | some (.id s) =>
      match s with
      | "const" | "inline" | "extern" => adv; go st uns sgn longs base
      | "static" => adv; go true uns sgn longs base
      | "unsigned" => adv; go st true sgn longs base
      | "signed" => adv; go st uns true longs base
      | "long" => adv; go st uns sgn (longs + 1) base
      | "char" => adv; go st uns sgn longs (some (.int .char))
      | "int" => adv; go st uns sgn longs (some (.int .i32))
      | "bool" => adv; go st uns sgn longs (some (.int .i32))
      | "size_t" | "uint64_t" => adv; go st uns sgn longs (some (.int .u64))
      | "uint8_t" => adv; go st uns sgn longs (some (.int .u8))
      | "void" => adv; go st uns sgn longs (some .void)
      | "struct" => do
        adv
        let n ← eatId
        go st uns sgn longs (some (.struct n))
      | "enum" => do
        adv
        let _ ← eatId
        go st uns sgn longs (some (.int .u32))
      | _ =>
        if base.isNone && !uns && !sgn && longs == 0 then
          match (← get).typedefs.lookup s with
          | some t => adv; go st uns sgn longs (some t)
          | none => fin
        else fin
    | _ => fin
  go false false false 0 none

partial def stars (t : CTy) : P CTy := do
  if ← tryP "*" then
    if ← isId "const" then adv
    stars (.ptr t)
  else return t

partial def sizeOf (t : CTy) : P Nat := do
  match t with
  | .arr t n => return n * (← sizeOf t)
  | .struct s =>
    match (← get).structs.lookup s with
    | some fs => fs.foldlM (fun a f => do return a + (← sizeOf f.2)) 0
    | none => err s!"size of struct {s}"
  | _ => return 1

def field (s f : String) : P (Nat × CTy) := do
  match (← get).structs.lookup s with
  | some fs =>
    let rec go (off : Nat) : List (String × CTy) → P (Nat × CTy)
      | [] => err s!"no member {f} in {s}"
      | (g, t) :: r => do if g == f then return (off, t) else go (off + (← sizeOf t)) r
    go 0 fs
  | none => err s!"members of struct {s}"

/-- Results of parsing an expression: a value, or something that can be assigned to. -/
inductive R where
  | rv (e : Expr) (t : CTy)
  | reg (i : Nat) (t : CTy)
  | mem (p : Expr) (t : CTy)
  deriving Inhabited

def R.ty : R → CTy
  | .rv _ t => t
  | .reg _ t => t
  | .mem _ t => t

def range : ITy → Int × Int
  | .char => (0, 127)
  | .i8 => (-128, 127)
  | .u8 => (0, 255)
  | .i32 => (-2147483648, 2147483647)
  | .u32 => (0, 4294967295)
  | .i64 => (-9223372036854775808, 9223372036854775807)
  | .u64 => (0, 18446744073709551615)

/-- Are all values of the first type values of the second? (`char` may be signed or not.) -/
def preserves (a b : ITy) : Bool :=
  a == b ||
  match a with
  | .char => b == .i32 || b == .i64
  | a => b != .char && (range b).1 ≤ (range a).1 && (range a).2 ≤ (range b).2

/-- Conversion of integers, explicit only if it can change the value. -/
def conv (e : Expr) (a b : ITy) : Expr :=
  match e with
  | .num v => if (range b).1 ≤ v && v ≤ (range b).2 then e else .cast b e
  | e => if preserves a b then e else .cast b e

def promote : ITy → ITy
  | .char | .i8 | .u8 => .i32
  | t => t

def common (a b : ITy) : ITy :=
  match promote a, promote b with
  | .u64, _ => .u64
  | _, .u64 => .u64
  | .i64, _ => .i64
  | _, .i64 => .i64
  | .u32, _ => .u32
  | _, .u32 => .u32
  | _, _ => .i32

/-- Value of an expression; arrays become pointers to their first element. A structure is represented by its address. -/
def toRv : R → P (Expr × CTy)
  | .rv e t => return (e, t)
  | .reg i t => return (.loc i, t)
  | .mem p t =>
    match t with
    | .int it => return (.load (.int it) p, t)
    | .ptr _ => return (.load .ptr p, t)
    | .arr t _ => return (p, .ptr t)
    | .struct _ => return (p, t)
    | .void => err "value of type void"

/-- Implicit conversion to a type. -/
def convTo (e : Expr) (from_ to : CTy) : P Expr := do
  match from_, to with
  | .int a, .int b => return conv e a b
  | .ptr _, .ptr _ => return e
  | .int _, .ptr _ => if let .num 0 := e then return .null else err "conversion of an integer to a pointer"
  | .struct a, .struct b => if a == b then return e else err "struct types"
  | _, _ => err s!"conversion from {repr from_} to {repr to}"

def arithE (op : AOp) (a : Expr) (ta : ITy) (b : Expr) (tb : ITy) : Expr × ITy :=
  match op with
  | .shl | .shr => (.ar op (promote ta) (conv a ta (promote ta)) (conv b tb (promote tb)), promote ta)
  | _ =>
    let t := common ta tb
    (.ar op t (conv a ta t) (conv b tb t), t)

/-- `a op b` for arithmetic and pointers. -/
def binE (op : AOp) (a : Expr) (ta : CTy) (b : Expr) (tb : CTy) : P (Expr × CTy) := do
  match op, ta, tb with
  | op, .int x, .int y => let (e, t) := arithE op a x b y; return (e, .int t)
  | .add, .ptr t, .int y => return (.padd (← sizeOf t) a (conv b y (promote y)), .ptr t)
  | .sub, .ptr t, .int y => return (.padd (-(← sizeOf t : Int)) a (conv b y (promote y)), .ptr t)
  | .sub, .ptr t, .ptr _ => return (.pdiff (← sizeOf t) a b, .int .i64)
  | _, _, _ => err s!"operands {repr ta} {repr tb}"

/-- Assignment. -/
def assign (lv : R) (e : Expr) (t : CTy) : P R := do
  match lv with
  | .reg i lt => return .rv (.set i (← convTo e t lt)) lt
  | .mem p lt =>
    match lt with
    | .int it => return .rv (.store (.int it) p (← convTo e t lt)) lt
    | .ptr _ => return .rv (.store .ptr p (← convTo e t lt)) lt
    | .struct _ => do
      let e ← convTo e t lt
      return .rv (.copy (← sizeOf lt) p e) lt
    | _ => err "assignment"
  | .rv _ _ => err "assignment to a value"

def lookupVar (n : String) : P (Option Var) := do
  let s ← get
  match s.scopes.findSome? (·.lookup n) with
  | some v => return some v
  | none => return s.globs.lookup n

/-- Add `off` cells to an address. -/
def atOff (p : Expr) (off : Nat) : Expr :=
  if off == 0 then p
  else match p with
    | .padd 1 q (.num k) => .padd 1 q (.num (k + off))
    | p => .padd 1 p (.num off)

def binPrec : List (String × Nat) :=
  [("*", 10), ("/", 10), ("%", 10), ("+", 9), ("-", 9), ("<<", 8), (">>", 8), ("<", 7), ("<=", 7), (">", 7), (">=", 7),
   ("==", 6), ("!=", 6), ("&", 5), ("^", 4), ("|", 3), ("&&", 2), ("||", 1)]

def aop : String → Option AOp
  | "*" => some .mul | "/" => some .div | "%" => some .mod | "+" => some .add | "-" => some .sub
  | "<<" => some .shl | ">>" => some .shr | "&" => some .band | "^" => some .bxor | "|" => some .bor
  | _ => none

def cop : String → Option COp
  | "<" => some .lt | "<=" => some .le | ">" => some .gt | ">=" => some .ge | "==" => some .eq | "!=" => some .ne
  | _ => none

mutual

partial def primary : P R := do
  match ← peek with
  | some (.num v t) => adv; return .rv (.num v) (.int t)
  | some (.chr v) => adv; return .rv (.num v) (.int .i32)
  | some (.str s) => do
    adv
    let rec more (acc : List UInt8) : P (List UInt8) := do
      match ← peek with
      | some (.str t) => adv; more (acc ++ t)
      | _ => return acc
    return .rv (.str (← more s)) (.ptr (.int .char))
  | some (.p "(") => do
    adv
    let r ← expr
    eat ")"
    return r
  | some (.id "NULL") => adv; return .rv .null (.ptr .void)
  | some (.id "true") => adv; return .rv (.num 1) (.int .i32)
  | some (.id "false") => adv; return .rv (.num 0) (.int .i32)
  | some (.id n) => do
    adv
    if ← isP "(" then
      adv
      let (ret, ps) ← match (← get).protos.lookup n with
        | some x => pure x
        | none => err s!"no prototype for {n}"
      let as ← args ps
      return .rv (.call n as) ret
    match ← lookupVar n with
    | some (.reg i t) => return .reg i t
    | some (.mem i t) => return .mem (.loc i) t
    | some (.glob g t) => return .mem (.glob g) t
    | none =>
      match (← get).enums.lookup n with
      | some v => return .rv (.num v) (.int .i32)
      | none => err s!"unknown identifier {n}"
  | _ => err "expression expected"

partial def args (ps : List CTy) : P Args := do
  if ← tryP ")" then return .nil
  let (e, t) ← toRv (← assignExpr)
  let e ← match ps with
    | q :: _ => convTo e t q
    | [] => pure e
  let _ ← tryP ","
  return .cons e (← args (ps.drop 1))

partial def postfixTail (r : R) : P R := do
  match ← peek with
  | some (.p "[") => do
    adv
    let (p, t) ← toRv r
    let (i, ti) ← toRv (← expr)
    eat "]"
    match t, ti with
    | .ptr t, .int ti =>
      let sz ← sizeOf t
      match i with
      | .num k => postfixTail (.mem (atOff p (k.toNat * sz)) t)
      | i => postfixTail (.mem (.padd sz p (conv i ti (promote ti))) t)
    | _, _ => err "subscript"
  | some (.p "->") => do
    adv
    let f ← memberName
    let (p, t) ← toRv r
    match t with
    | .ptr (.struct s) => do
      let (off, ft) ← field s f
      postfixTail (.mem (atOff p off) ft)
    | _ => err "-> on a non-struct"
  | some (.p ".") => do
    adv
    let f ← memberName
    match r with
    | .mem p (.struct s) => do
      let (off, ft) ← field s f
      postfixTail (.mem (atOff p off) ft)
    | _ => err ". on a non-struct"
  | some (.p "++") => adv; postfixTail (← incr true .add r)
  | some (.p "--") => adv; postfixTail (← incr true .sub r)
  | _ => return r

partial def memberName : P String := do
  let f ← eatId
  if f == "MBEDTLS_PRIVATE" then
    eat "("
    let g ← eatId
    eat ")"
    return g
  else return f

partial def incr (post : Bool) (op : AOp) (r : R) : P R := do
  match r with
  | .reg i t => do
    let (e, te) ← binE op (.loc i) t (.num 1) (.int .i32)
    let e ← convTo e te t
    return .rv (if post then .post i e else .set i e) t
  | _ => err "++/-- on something that is not a local variable"

partial def unary : P R := do
  match ← peek with
  | some (.p "!") => do
    adv
    let (e, _) ← toRv (← unary)
    return .rv (.not e) (.int .i32)
  | some (.p "-") => do
    adv
    match ← toRv (← unary) with
    | (.num v, t) => return .rv (.num (-v)) t
    | (e, .int t) => let (e, t) := arithE .sub (.num 0) .i32 e t; return .rv e (.int t)
    | _ => err "unary -"
  | some (.p "~") => do
    adv
    match ← toRv (← unary) with
    | (.num v, t) => return .rv (.num (-v - 1)) t
    | _ => err "~ is only supported on constants"
  | some (.p "&") => do
    adv
    match ← unary with
    | .mem p t => return .rv p (.ptr t)
    | _ => err "& of something without address"
  | some (.p "*") => do
    adv
    match ← toRv (← unary) with
    | (p, .ptr t) => return .mem p t
    | _ => err "* of a non-pointer"
  | some (.p "++") => adv; incr false .add (← unary)
  | some (.p "--") => adv; incr false .sub (← unary)
  | some (.id "sizeof") => do
    adv
    eat "("
    let t ← if ← isTypeStart then do
        let (t, _) ← specs
        stars t
      else do
        let r ← expr
        pure r.ty
    eat ")"
    return .rv (.num (← sizeOf t)) (.int .u64)
  | some (.p "(") => do
    let save ← get
    adv
    if ← isTypeStart then
      let (t, _) ← specs
      let t ← stars t
      eat ")"
      let (e, te) ← toRv (← unary)
      match te, t with
      | .int a, .int b => return .rv (conv e a b) t
      | .ptr _, .ptr _ => return .rv e t
      | _, _ => err "cast"
    else
      set save
      postfixTail (← primary)
  | _ => postfixTail (← primary)

partial def binary (minPrec : Nat) : P R := do
  let rec loop (l : R) : P R := do
    match ← peek with
    | some (.p q) =>
      match binPrec.lookup q with
      | some pr =>
        if pr < minPrec then return l
        adv
        let r ← binary (pr + 1)
        let (a, ta) ← toRv l
        let (b, tb) ← toRv r
        match q with
        | "&&" => loop (.rv (.land a b) (.int .i32))
        | "||" => loop (.rv (.lor a b) (.int .i32))
        | _ =>
          match cop q with
          | some op =>
            match ta, tb with
            | .int x, .int y =>
              let t := common x y
              loop (.rv (.cmp op (conv a x t) (conv b y t)) (.int .i32))
            | .ptr _, .ptr _ => loop (.rv (.cmp op a b) (.int .i32))
            | _, _ => err "comparison of an integer and a pointer"
          | none =>
            match aop q with
            | some op => do
              let (e, t) ← binE op a ta b tb
              loop (.rv e t)
            | none => err "operator"
      | none => return l
    | _ => return l
  loop (← unary)

partial def condExpr : P R := do
  let c ← binary 0
  if ← tryP "?" then
    let (ce, _) ← toRv c
    let (a, ta) ← toRv (← expr)
    eat ":"
    let (b, tb) ← toRv (← condExpr)
    match ta, tb with
    | .int x, .int y =>
      let t := common x y
      return .rv (.cond ce (conv a x t) (conv b y t)) (.int t)
    | .ptr x, .ptr y => return .rv (.cond ce a b) (.ptr (if x == .void then y else x))
    | _, _ => err "?:"
  else return c

partial def assignExpr : P R := do
  let l ← condExpr
  match ← peek with
  | some (.p "=") => do
    adv
    let (e, t) ← toRv (← assignExpr)
    assign l e t
  | some (.p q) =>
    let op : Option AOp := match q with
      | "+=" => some .add | "-=" => some .sub | "*=" => some .mul | "/=" => some .div | "|=" => some .bor
      | "&=" => some .band | _ => none
    match op with
    | some op => do
      adv
      let (e, t) ← toRv (← assignExpr)
      let (a, ta) ← toRv l
      let (v, tv) ← binE op a ta e t
      assign l v tv
    | none => return l
  | _ => return l

partial def expr : P R := do
  let a ← assignExpr
  if ← tryP "," then
    let (ea, _) ← toRv a
    let (eb, tb) ← toRv (← expr)
    return .rv (.comma ea eb) tb
  else return a

end

/-- The expression of an expression statement (its value is not used). -/
def discard : R → P Expr
  | .rv e _ => return e
  | .reg i _ => return .loc i
  | .mem p _ => return p

def newSlot : P Nat := do
  let s ← get
  set { s with slots := s.slots + 1 }
  return s.slots

def bindVar (n : String) (v : Var) : P Unit := modify fun s =>
  match s.scopes with
  | sc :: r => { s with scopes := ((n, v) :: sc) :: r }
  | [] => { s with globs := (n, v) :: s.globs }

def constVal : Expr → P Val
  | .num v => return .int v
  | .null => return .ptr none
  | .str s => return .ptr (some (.lit s, 0))
  | _ => err "constant initialiser expected"

/-- `{ a, b, ... }` or a string. -/
partial def initList : P (List Val) := do
  match ← peek with
  | some (.str _) => do
    match ← toRv (← primary) with
    | (.str s, _) => return s.map (fun b => .int b.toNat) ++ [.int 0]
    | _ => err "string initialiser"
  | _ =>
    eat "{"
    let rec go (acc : List Val) : P (List Val) := do
      if ← tryP "}" then return acc.reverse
      let (e, _) ← toRv (← assignExpr)
      let v ← constVal e
      let _ ← tryP ","
      go (v :: acc)
    go []

/-- Array dimensions. -/
partial def dims (t : CTy) : P (CTy × Bool) := do
  if ← tryP "[" then
    if ← tryP "]" then return (.arr t 0, true)
    let n ← constDim
    eat "]"
    return (.arr t n, false)
  else return (t, false)
where
  constDim : P Nat := do
    match ← toRv (← expr) with
    | (.num v, _) => return v.toNat
    | (.ar .add _ (.num a) (.num b), _) => return (a + b).toNat
    | (.ar .mul _ (.num a) (.num b), _) => return (a * b).toNat
    | _ => err "array size"

def seqs : List Stmt → Stmt
  | [] => .skip
  | [s] => s
  | s :: r => .seq s (seqs r)

/-- `{ { .a = x, .b = y }, ... }`: the initialiser of a local array of structures in slot `i` (members that are not mentioned are
zero): the number of elements and the assignments. -/
partial def structInits (i : Nat) (e : CTy) : P (Nat × List Stmt) := do
  let s ← match e with
    | .struct s => pure s
    | _ => err "array of structures expected"
  let sz ← sizeOf e
  let rec members (k : Nat) (acc : List Stmt) : P (List Stmt) := do
    if ← tryP "}" then return acc
    eat "."
    let f ← eatId
    eat "="
    let (off, ft) ← field s f
    let (v, tv) ← toRv (← assignExpr)
    let a ← assign (.mem (atOff (.loc i) (k * sz + off)) ft) v tv
    let _ ← tryP ","
    members k (.exp (← discard a) :: acc)
  let rec elems (k : Nat) (acc : List Stmt) : P (Nat × List Stmt) := do
    if ← tryP "}" then return (k, acc.reverse)
    eat "{"
    let acc ← members k acc
    let _ ← tryP ","
    elems (k + 1) acc
  eat "{"
  elems 0 []

/-- A declaration (without its `;`) in a function. -/
partial def declaration : P (List Stmt) := do
  let (base, st) ← specs
  let rec go (acc : List Stmt) : P (List Stmt) := do
    let t ← stars base
    let n ← eatId
    let (t, open_) ← dims t
    if st then
      eat "="
      let vs ← initList
      let g := (← get).fname ++ "." ++ n
      let t := match t with | .arr e _ => .arr e vs.length | t => t
      modify fun s => { s with tables := (g, vs) :: s.tables }
      bindVar n (.glob g t)
      next acc
    else
      let taken := (← get).addrTaken.contains n
      match t with
      | .arr e k => do
        let i ← newSlot
        if (match e with | .struct _ => true | _ => false) && (← isP "=") then
          adv
          let (cnt, stores) ← structInits i e
          bindVar n (.mem i (.arr e cnt))
          next (stores.reverse ++ .declMem i (cnt * (← sizeOf e)) [] (.int 0) :: acc)
        else if ← tryP "=" then
          let vs ← initList
          let k := if open_ then vs.length else k
          bindVar n (.mem i (.arr e k))
          next (.declMem i (k * (← sizeOf e)) vs (.int 0) :: acc)
        else
          bindVar n (.mem i t)
          match e with
          | .struct _ => next (.declArr i (k * (← sizeOf e)) :: acc)
          | _ => next (.declMem i (k * (← sizeOf e)) [] .undef :: acc)
      | .struct _ => do
        let i ← newSlot
        let sz ← sizeOf t
        if ← tryP "=" then
          let r ← assignExpr
          let (e, te) ← toRv r
          bindVar n (.mem i t)
          let a ← assign (.mem (.loc i) t) e te
          next (.exp (← discard a) :: .declMem i sz [] .undef :: acc)
        else
          bindVar n (.mem i t)
          next (.declMem i sz [] .undef :: acc)
      | t =>
        if taken then
          let i ← newSlot
          if ← tryP "=" then
            let (e, te) ← toRv (← assignExpr)
            bindVar n (.mem i t)
            let a ← assign (.mem (.loc i) t) e te
            next (.exp (← discard a) :: .declMem i 1 [] .undef :: acc)
          else
            bindVar n (.mem i t)
            next (.declMem i 1 [] .undef :: acc)
        else
          let i ← newSlot
          if ← tryP "=" then
            let (e, te) ← toRv (← assignExpr)
            bindVar n (.reg i t)
            let a ← assign (.reg i t) e te
            next (.exp (← discard a) :: acc)
          else
            bindVar n (.reg i t)
            next (.decl i :: acc)
  go []
where
  next (acc : List Stmt) : P (List Stmt) := do
    if ← tryP "," then
      let s ← get
      let _ := s
      err "several declarators"
    else return acc.reverse

/-- A declaration with several declarators is read as several declarations: repeat the specifiers. -/
partial def declStmt : P (List Stmt) := do
  let s ← get
  let specToks := s.toks.take ((s.toks.length) - (← do let _ ← specs; pure (← get).toks.length))
  let s ← get
  -- split the declarators at top-level commas up to `;`
  let rec split (depth : Nat) (cur : List Tok) (acc : List (List Tok)) : List Tok → List (List Tok) × List Tok
    | [] => ((cur.reverse :: acc).reverse, [])
    | .p ";" :: r => if depth == 0 then ((cur.reverse :: acc).reverse, r) else split depth (.p ";" :: cur) acc r
    | .p "," :: r => if depth == 0 then split depth [] (cur.reverse :: acc) r else split depth (.p "," :: cur) acc r
    | .p q :: r =>
      if q == "(" || q == "{" || q == "[" then split (depth + 1) (.p q :: cur) acc r
      else if q == ")" || q == "}" || q == "]" then split (depth - 1) (.p q :: cur) acc r
      else split depth (.p q :: cur) acc r
    | t :: r => split depth (t :: cur) acc r
  let (parts, rest) := split 0 [] [] s.toks
  let mut out : List Stmt := []
  for p in parts do
    modify fun s => { s with toks := specToks ++ p ++ [.p ";"] }
    let ss ← declaration
    eat ";"
    out := out ++ ss
  modify fun s => { s with toks := rest }
  return out

def withScope {α : Type} (m : P α) : P α := do
  modify fun s => { s with scopes := [] :: s.scopes }
  let a ← m
  modify fun s => { s with scopes := s.scopes.drop 1 }
  return a

mutual

partial def stmt : P (List Stmt) := do
  match ← peek with
  | some (.p "{") => do
    adv
    let ss ← withScope (stmts)
    return ss
  | some (.p ";") => adv; return []
  | some (.id "if") => do
    adv
    eat "("
    let (c, _) ← toRv (← expr)
    eat ")"
    let a ← withScope stmt
    if ← isId "else" then
      adv
      let b ← withScope stmt
      return [.ite c (seqs a) (seqs b)]
    return [.ite c (seqs a) .skip]
  | some (.id "while") => do
    adv
    eat "("
    let (c, _) ← toRv (← expr)
    eat ")"
    let b ← withScope stmt
    return [.loop c (seqs b) (.num 0)]
  | some (.id "for") => do
    adv
    eat "("
    withScope do
      let init ← if ← isTypeStart then declStmt else do
        let e ← discard (← expr)
        eat ";"
        pure [.exp e]
      let (c, _) ← toRv (← expr)
      eat ";"
      let step ← discard (← expr)
      eat ")"
      let b ← withScope stmt
      return init ++ [.loop c (seqs b) step]
  | some (.id "switch") => do
    adv
    eat "("
    let (e, t) ← toRv (← expr)
    eat ")"
    let e ← match t with
      | .int t => pure (conv e t (promote t))
      | _ => err "switch"
    let b ← stmt
    return [.switch e (seqs b)]
  | some (.id "case") => do
    adv
    let (e, _) ← toRv (← condExpr)
    eat ":"
    match e with
    | .num v => return [.case v]
    | _ => err "case"
  | some (.id "default") => do
    adv
    eat ":"
    return [.default]
  | some (.id "goto") => do
    adv
    let l ← eatId
    eat ";"
    return [.goto l]
  | some (.id "break") => adv; eat ";"; return [.brk]
  | some (.id "continue") => adv; eat ";"; return [.cont]
  | some (.id "return") => do
    adv
    if ← tryP ";" then return [.retVoid]
    let (e, t) ← toRv (← expr)
    eat ";"
    return [.ret (← convTo e t (← get).retTy)]
  | some (.id l) => do
    if (← peek2) == some (.p ":") then
      adv
      adv
      return [.label l]
    if ← isTypeStart then declStmt
    else
      let e ← discard (← expr)
      eat ";"
      return [.exp e]
  | _ => do
    let e ← discard (← expr)
    eat ";"
    return [.exp e]

partial def stmts : P (List Stmt) := do
  if ← tryP "}" then return []
  let a ← stmt
  let b ← stmts
  return a ++ b

end

/-- Identifiers whose address is taken in a function body. -/
def addressTaken : List Tok → List String
  | a :: .p "&" :: .id n :: r =>
    let binop := match a with
      | .id _ => true
      | .num _ _ => true
      | .p "]" => true
      | _ => false
    if binop then addressTaken (.id n :: r) else n :: addressTaken (.id n :: r)
  | _ :: r => addressTaken r
  | [] => []

/-- Tokens up to the brace that closes the current block. -/
def bodyToks (depth : Nat) : List Tok → List Tok
  | .p "{" :: r => .p "{" :: bodyToks (depth + 1) r
  | .p "}" :: r => if depth == 0 then [] else .p "}" :: bodyToks (depth - 1) r
  | t :: r => t :: bodyToks depth r
  | [] => []

/-- Parameters, after `(`: names and types. -/
partial def params : P (List (String × CTy)) := do
  if ← tryP ")" then return []
  if (← isId "void") && (← peek2) == some (.p ")") then
    adv
    adv
    return []
  if ← tryP "..." then
    eat ")"
    return []
  let (t, _) ← specs
  let t ← stars t
  let n ← match ← peek with
    | some (.id s) => adv; pure s
    | _ => pure ""
  let (t, _) ← dims t
  let t := match t with | .arr e _ => .ptr e | t => t
  let _ ← tryP ","
  return (n, t) :: (← params)

/-- The value of an enumerator. -/
partial def constEval : Expr → P Int
  | .num v => return v
  | .cast _ e => constEval e
  | .ar .shl _ a b => do return (← constEval a) * 2 ^ (← constEval b).toNat
  | .ar .bor _ a b => do return ((← constEval a).toNat ||| (← constEval b).toNat : Nat)
  | _ => err "enumerator"

/-- One external declaration; the function, if it is a definition. -/
partial def external : P (Option CFun) := do
  match ← peek, ← peek2 with
  | some (.p ";"), _ => adv; return none
  | some (.id "extern"), some (.str _) => err "extern \"C\""
  | some (.id "typedef"), _ => do
    adv
    let (t, _) ← specs
    let t ← stars t
    let n ← eatId
    eat ";"
    modify fun s => { s with typedefs := (n, t) :: s.typedefs }
    return none
  | some (.id "struct"), some (.id n) =>
    if ((← get).toks.drop 2).head? == some (.p "{") then
      adv; adv; adv
      let rec fields (acc : List (String × CTy)) : P (List (String × CTy)) := do
        if ← tryP "}" then return acc.reverse
        let (t, _) ← specs
        let t ← stars t
        let f ← eatId
        let (t, _) ← dims t
        eat ";"
        fields ((f, t) :: acc)
      let fs ← fields []
      eat ";"
      modify fun s => { s with structs := (n, fs) :: s.structs }
      return none
    else if ((← get).toks.drop 2).head? == some (.p ";") then
      adv; adv; adv
      return none
    else function
  | some (.id "enum"), some (.id _) =>
    if ((← get).toks.drop 2).head? == some (.p "{") then
      adv; adv; adv
      let rec enumerators (next : Int) : P Unit := do
        if ← tryP "}" then return ()
        let n ← eatId
        let v ← if ← tryP "=" then do
            let (e, _) ← toRv (← condExpr)
            constEval e
          else pure next
        modify fun s => { s with enums := (n, v) :: s.enums }
        let _ ← tryP ","
        enumerators (v + 1)
      enumerators 0
      eat ";"
      return none
    else function
  | _, _ => function
where
  function : P (Option CFun) := do
    let (base, _) ← specs
    let t ← stars base
    let n ← eatId
    if ← tryP "(" then
      let ps ← params
      modify fun s => { s with protos := (n, t, ps.map (·.2)) :: s.protos }
      if ← tryP ";" then return none
      eat "{"
      let s ← get
      let taken := addressTaken (bodyToks 0 s.toks)
      if ps.any (fun p => taken.contains p.1) then err s!"{n}: address of a parameter"
      let scope := (ps.zip (List.range ps.length)).map fun (p, i) => (p.1, Var.reg i p.2)
      set { s with scopes := [scope.reverse], slots := ps.length, addrTaken := taken, retTy := t, fname := n }
      let body ← withScope stmts
      let s ← get
      set { s with scopes := [], addrTaken := [], fname := "" }
      return some { name := n, params := ps.length, slots := s.slots, body := seqs body }
    else
      let (t, _) ← dims t
      eat "="
      let vs ← initList
      eat ";"
      let t := match t with | .arr e _ => .arr e vs.length | t => t
      modify fun s => { s with tables := (n, vs) :: s.tables }
      bindVar n (.glob n t)
      return none

partial def unit (acc : List CFun) : P (List CFun) := do
  if (← get).toks.isEmpty then return acc.reverse
  match ← external with
  | some f => unit (f :: acc)
  | none => unit acc

/-- The functions and `static` tables of a text. -/
def parse (text : String) : Except String (List CFun × List (String × List Val)) := do
  let toks ← preprocess [] [] ((String.ofList (stripComments text.toList)).splitOn "\n")
  let (fs, s) ← (unit []).run { toks := toks }
  return (fs, s.tables.reverse)

/-! ## Definitions -/

deriving instance Lean.ToExpr for ITy
deriving instance Lean.ToExpr for STy
deriving instance Lean.ToExpr for AOp
deriving instance Lean.ToExpr for COp

open Lean in
instance : ToExpr UInt8 where
  toExpr b := mkApp3 (mkConst ``OfNat.ofNat [Level.zero]) (mkConst ``UInt8) (mkRawNatLit b.toNat)
    (mkApp (mkConst ``UInt8.instOfNat) (mkRawNatLit b.toNat))
  toTypeExpr := mkConst ``UInt8

deriving instance Lean.ToExpr for Blk
deriving instance Lean.ToExpr for Val

open Lean

mutual
/-- Expressions as Lean terms. -/
partial def exprTerm : C.Expr → Lean.Expr
  | .num v => mkApp (mkConst ``C.Expr.num) (toExpr v)
  | .null => mkConst ``C.Expr.null
  | .str s => mkApp (mkConst ``C.Expr.str) (toExpr s)
  | .glob g => mkApp (mkConst ``C.Expr.glob) (toExpr g)
  | .loc i => mkApp (mkConst ``C.Expr.loc) (toExpr i)
  | .cast t e => mkApp2 (mkConst ``C.Expr.cast) (toExpr t) (exprTerm e)
  | .ar op t a b => mkApp4 (mkConst ``C.Expr.ar) (toExpr op) (toExpr t) (exprTerm a) (exprTerm b)
  | .cmp op a b => mkApp3 (mkConst ``C.Expr.cmp) (toExpr op) (exprTerm a) (exprTerm b)
  | .not a => mkApp (mkConst ``C.Expr.not) (exprTerm a)
  | .land a b => mkApp2 (mkConst ``C.Expr.land) (exprTerm a) (exprTerm b)
  | .lor a b => mkApp2 (mkConst ``C.Expr.lor) (exprTerm a) (exprTerm b)
  | .cond c a b => mkApp3 (mkConst ``C.Expr.cond) (exprTerm c) (exprTerm a) (exprTerm b)
  | .comma a b => mkApp2 (mkConst ``C.Expr.comma) (exprTerm a) (exprTerm b)
  | .padd s p i => mkApp3 (mkConst ``C.Expr.padd) (toExpr s) (exprTerm p) (exprTerm i)
  | .pdiff s a b => mkApp3 (mkConst ``C.Expr.pdiff) (toExpr s) (exprTerm a) (exprTerm b)
  | .load t p => mkApp2 (mkConst ``C.Expr.load) (toExpr t) (exprTerm p)
  | .store t p e => mkApp3 (mkConst ``C.Expr.store) (toExpr t) (exprTerm p) (exprTerm e)
  | .set i e => mkApp2 (mkConst ``C.Expr.set) (toExpr i) (exprTerm e)
  | .post i e => mkApp2 (mkConst ``C.Expr.post) (toExpr i) (exprTerm e)
  | .copy n p q => mkApp3 (mkConst ``C.Expr.copy) (toExpr n) (exprTerm p) (exprTerm q)
  | .call f as => mkApp2 (mkConst ``C.Expr.call) (toExpr f) (argsTerm as)
/-- Arguments as Lean terms. -/
partial def argsTerm : C.Args → Lean.Expr
  | .nil => mkConst ``C.Args.nil
  | .cons e r => mkApp2 (mkConst ``C.Args.cons) (exprTerm e) (argsTerm r)
end

open Elab Command in
/-- Add a definition. -/
def addDef (n : Name) (ty val : Lean.Expr) : CommandElabM Unit := liftCoreM do
  addAndCompile <| .defnDecl
    { name := n, levelParams := [], type := ty, value := val, hints := .abbrev, safety := .safe }

open Elab Command in
/-- Statements as Lean terms; loops become definitions `n.loop1`, …. -/
partial def stmtTerm (n : Name) (s : C.Stmt) : StateT Nat CommandElabM Lean.Expr := do
  match s with
  | .skip => return mkConst ``C.Stmt.skip
  | .exp e => return mkApp (mkConst ``C.Stmt.exp) (exprTerm e)
  | .seq a b => return mkApp2 (mkConst ``C.Stmt.seq) (← stmtTerm n a) (← stmtTerm n b)
  | .ite c a b => return mkApp3 (mkConst ``C.Stmt.ite) (exprTerm c) (← stmtTerm n a) (← stmtTerm n b)
  | .loop c b st => do
    let t := mkApp3 (mkConst ``C.Stmt.loop) (exprTerm c) (← stmtTerm n b) (exprTerm st)
    let k ← get
    set (k + 1)
    let d := n ++ Name.mkSimple s!"loop{k + 1}"
    addDef d (mkConst ``C.Stmt) t
    return mkConst d
  | .switch e b => return mkApp2 (mkConst ``C.Stmt.switch) (exprTerm e) (← stmtTerm n b)
  | .case v => return mkApp (mkConst ``C.Stmt.case) (toExpr v)
  | .default => return mkConst ``C.Stmt.default
  | .label l => return mkApp (mkConst ``C.Stmt.label) (toExpr l)
  | .goto l => return mkApp (mkConst ``C.Stmt.goto) (toExpr l)
  | .brk => return mkConst ``C.Stmt.brk
  | .cont => return mkConst ``C.Stmt.cont
  | .ret e => return mkApp (mkConst ``C.Stmt.ret) (exprTerm e)
  | .retVoid => return mkConst ``C.Stmt.retVoid
  | .decl i => return mkApp (mkConst ``C.Stmt.decl) (toExpr i)
  | .declMem i k init fill =>
    return mkApp4 (mkConst ``C.Stmt.declMem) (toExpr i) (toExpr k) (toExpr init) (toExpr fill)
  | .declArr i k => return mkApp2 (mkConst ``C.Stmt.declArr) (toExpr i) (toExpr k)

open Elab Command in
/-- `c_unit ns : text`: define the functions of a C text. -/
elab "c_unit " ns:ident " : " t:term : command => do
  let text ← liftTermElabM <| unsafe Term.evalTerm String (mkConst ``String) t
  match parse text with
  | .error e => throwError e
  | .ok (fs, tables) =>
    let pre := (← getCurrNamespace) ++ ns.getId
    for f in fs do
      let n := pre ++ Name.mkSimple f.name
      let (body, _) ← (stmtTerm n f.body).run 0
      addDef n (mkConst ``CFun)
        (mkApp4 (mkConst ``CFun.mk) (toExpr f.name) (toExpr f.params) (toExpr f.slots) body)
    addDef (pre ++ `globals) (toTypeExpr (List (String × List Val))) (toExpr tables)

end L8w8jwt.C.Parse
