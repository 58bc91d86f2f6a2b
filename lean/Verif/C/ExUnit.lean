import Verif.C.ExText
/-!
# The programs of /repo/examples as terms

`c_main n : text` reads a text and defines `n : CFun`, its function `main`. The arrays of characters at file scope, all of them
initialised by a string, become `n.KEY : Bytes` and so on, and the array is represented like the string literal with the same characters.

`c_template n (k "a" "b" …) : text` defines the same as a function of the number `k`, of the arrays at file scope, and of the given
string literals. Programs that differ in these only are instances of one such function, which is checked by `rfl` in each case.
-/

namespace L8w8jwt.C.Parse

open Lean Elab Command

/-- The `main` function of a text, its arrays, and for each array its characters. -/
def mainOf (text : String) : CommandElabM (CFun × List (String × List UInt8)) := do
  match parse text with
  | .error e => throwError e
  | .ok (fs, tables) =>
    let some f := fs.find? (·.name == "main") | throwError "no main"
    let ts ← tables.mapM fun (n, vs) => do
      let bs ← vs.mapM fun v => match v with
        | .int k => pure (UInt8.ofNat k.toNat)
        | _ => throwError "table"
      unless bs.getLast? == some 0 && !bs.dropLast.contains 0 do throwError "not a string"
      pure (n, bs.dropLast)
    return (f, ts)

/-- The function with the arrays replaced. -/
def mainTerm (n : Name) (f : CFun) (sub : Lean.Expr → Option Lean.Expr) : CommandElabM Lean.Expr := do
  let (body, k) ← (stmtTerm n f.body).run 0
  unless k == 0 do throwError "loops"
  return (mkApp4 (mkConst ``CFun.mk) (toExpr f.name) (toExpr f.params) (toExpr f.slots) body).replace sub

elab "c_main " ns:ident " : " t:term : command => do
  let text ← liftTermElabM <| unsafe Term.evalTerm String (mkConst ``String) t
  let (f, ts) ← mainOf text
  let n := (← getCurrNamespace) ++ ns.getId
  for (g, bs) in ts do
    addDef (n ++ Name.mkSimple g) (mkConst ``Bytes) (toExpr bs)
  let val ← mainTerm n f fun e =>
    if e.isAppOfArity ``C.Expr.glob 1 then
      match e.appArg! with
      | .lit (.strVal g) => some (mkApp (mkConst ``C.Expr.str) (mkConst (n ++ Name.mkSimple g)))
      | _ => none
    else none
  addDef n (mkConst ``CFun) val

elab "c_template " ns:ident "(" k:num ss:str* ")" " : " t:term : command => do
  let text ← liftTermElabM <| unsafe Term.evalTerm String (mkConst ``String) t
  let (f, ts) ← mainOf text
  let n := (← getCurrNamespace) ++ ns.getId
  let strs := (ss.map (·.getString)).toList
  let vars : List Name := ts.map (fun x => Name.mkSimple x.1) ++ (List.range strs.length).map fun i => Name.mkSimple s!"s{i}"
  let byteTy := mkConst ``Bytes
  let fAlg := mkFVar ⟨`alg⟩
  let keys : List (Lean.Expr × Lean.Expr) :=
    (mkApp (mkConst ``C.Expr.num) (toExpr (k.getNat : Int)), mkApp (mkConst ``C.Expr.num) fAlg) ::
    ts.map (fun x => (mkApp (mkConst ``C.Expr.glob) (toExpr x.1), mkApp (mkConst ``C.Expr.str) (mkFVar ⟨Name.mkSimple x.1⟩))) ++
    (strs.zip (List.range strs.length)).map fun (s, i) =>
      (mkApp (mkConst ``C.Expr.str) (toExpr s.toUTF8.toList), mkApp (mkConst ``C.Expr.str) (mkFVar ⟨Name.mkSimple s!"s{i}"⟩))
  let val ← mainTerm n f fun e => (keys.find? (·.1 == e)).map (·.2)
  let fvars := #[fAlg] ++ (vars.map fun v => mkFVar ⟨v⟩).toArray
  let body := val.abstract fvars
  let val := vars.foldr (fun v b => Lean.Expr.lam v byteTy b .default) body
  let ty := vars.foldr (fun v b => Lean.Expr.forallE v byteTy b .default) (mkConst ``CFun)
  addDef n (.forallE `alg (mkConst ``Int) ty .default) (.lam `alg (mkConst ``Int) val .default)

end L8w8jwt.C.Parse

namespace L8w8jwt.C

open Text

/-- What the examples include. -/
def exHeaders : String := Text.externs ++ mbed ++ version_h ++ retcodes_h ++ algs_h ++ claim_h ++ util_h ++ base64_h ++ decode_h ++ encode_h ++ ExText.externs

/-! ## examples/*/encode.c -/

c_main Ex.hs256_encode : exHeaders ++ ExText.hs256_encode
c_main Ex.hs384_encode : exHeaders ++ ExText.hs384_encode
c_main Ex.hs512_encode : exHeaders ++ ExText.hs512_encode
c_main Ex.rs256_encode : exHeaders ++ ExText.rs256_encode
c_main Ex.rs384_encode : exHeaders ++ ExText.rs384_encode
c_main Ex.rs512_encode : exHeaders ++ ExText.rs512_encode
c_main Ex.ps256_encode : exHeaders ++ ExText.ps256_encode
c_main Ex.ps384_encode : exHeaders ++ ExText.ps384_encode
c_main Ex.ps512_encode : exHeaders ++ ExText.ps512_encode
c_main Ex.es256_encode : exHeaders ++ ExText.es256_encode
c_main Ex.es384_encode : exHeaders ++ ExText.es384_encode
c_main Ex.es512_encode : exHeaders ++ ExText.es512_encode
c_main Ex.es256k_encode : exHeaders ++ ExText.es256k_encode
c_main Ex.eddsa_encode : exHeaders ++ ExText.eddsa_encode

-- algorithm, key, format string
c_template Ex.encodeMain (7777777 "test key" "\nl8w8jwt_encode_hs256 function returned %s (code %d).\n\nCreated token: \n%s\n") :
  exHeaders ++ "#define L8W8JWT_ALG_HS256 7777777\n" ++ ExText.hs256_encode

/-! ## examples/*/decode.c -/

c_main Ex.hs256_decode : exHeaders ++ ExText.hs256_decode
c_main Ex.hs384_decode : exHeaders ++ ExText.hs384_decode
c_main Ex.hs512_decode : exHeaders ++ ExText.hs512_decode
c_main Ex.rs256_decode : exHeaders ++ ExText.rs256_decode
c_main Ex.rs384_decode : exHeaders ++ ExText.rs384_decode
c_main Ex.rs512_decode : exHeaders ++ ExText.rs512_decode
c_main Ex.ps256_decode : exHeaders ++ ExText.ps256_decode
c_main Ex.ps384_decode : exHeaders ++ ExText.ps384_decode
c_main Ex.ps512_decode : exHeaders ++ ExText.ps512_decode
c_main Ex.es256_decode : exHeaders ++ ExText.es256_decode
c_main Ex.es384_decode : exHeaders ++ ExText.es384_decode
c_main Ex.es512_decode : exHeaders ++ ExText.es512_decode
c_main Ex.es256k_decode : exHeaders ++ ExText.es256k_decode
c_main Ex.eddsa_decode : exHeaders ++ ExText.eddsa_decode

-- algorithm, key, token, format string
c_template Ex.decodeMain (7777777 "\nl8w8jwt_decode_hs384 function returned %s (code %d).\n\nValidation result: \n%d\n") :
  exHeaders ++ "#define L8W8JWT_ALG_HS384 7777777\n" ++ ExText.hs384_decode

-- the same with a check of `nbf`
c_template Ex.decodeNbfMain (7777777 "\nl8w8jwt_decode_rs512 function returned %s (code %d).\n\nValidation result: \n%d\n") :
  exHeaders ++ "#define L8W8JWT_ALG_RS512 7777777\n" ++ ExText.rs512_decode

-- the same with a check of `typ`
c_template Ex.decodeTypMain (7777777 "\nl8w8jwt_decode_eddsa function returned %s (code %d).\n\nValidation result: \n%d\n") :
  exHeaders ++ "#define L8W8JWT_ALG_ED25519 7777777\n" ++ ExText.eddsa_decode

-- with claims handed out (this one does not name an algorithm: -1)
c_template Ex.decodeClaimsMain (7777777 "\nl8w8jwt_decode_hs256 function returned %s (code %d).\n\nValidation result: \n%d\n") :
  exHeaders ++ ExText.hs256_decode

-- followed by raw decoding
c_template Ex.decodeRawMain (7777777 "\nl8w8jwt_decode_rs256 function returned %s (code %d).\n\nValidation result: \n%d\n") :
  exHeaders ++ "#define L8W8JWT_ALG_RS256 7777777\n" ++ ExText.rs256_decode

/-! ## examples/eddsa/keygen.c -/

c_unit Ex.Keygen : exHeaders ++ ExText.eddsa_keygen

end L8w8jwt.C
