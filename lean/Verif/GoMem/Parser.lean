import Verif.GoLang.Parser
import Verif.GoMem.Syntax
/-!
# Parser for a larger part of Go

A recursive descent parser for the abstract syntax of `GoMem/Syntax.lean`, after the grammar of go.dev/ref/spec. What is not in
the part of the language that is covered is an error (`none`). The parameter `lit` says whether `T{` may begin a composite
literal: in the header of `if`, `for` and `switch` it does not (go.dev/ref/spec#Composite_literals).
-/

namespace Textseg.GoMem
open Textseg.GoLang (Tok P skipOp skipWord parseName skipSemi keywords lexLines parseNames parseImports)

/-- The binary operator of a token, with its precedence. -/
def binOp : Tok → Option (BinOp × Nat)
  | .op x =>
    if x = name! "||" then some (.lor, 1)
    else if x = name! "&&" then some (.land, 2)
    else if x = name! "==" then some (.eq, 3)
    else if x = name! "!=" then some (.ne, 3)
    else if x = name! "<" then some (.lt, 3)
    else if x = name! "<=" then some (.le, 3)
    else if x = name! ">" then some (.gt, 3)
    else if x = name! ">=" then some (.ge, 3)
    else if x = name! "+" then some (.add, 4)
    else if x = name! "-" then some (.sub, 4)
    else if x = name! "|" then some (.or, 4)
    else if x = name! "*" then some (.mul, 5)
    else if x = name! "%" then some (.rem, 5)
    else if x = name! "<<" then some (.shl, 5)
    else if x = name! ">>" then some (.shr, 5)
    else if x = name! "&" then some (.and, 5)
    else none
  | _ => none

/-- The operator of `op=`. -/
def assignOp (x : Nat) : Option BinOp :=
  if x = name! "+=" then some .add
  else if x = name! "-=" then some .sub
  else if x = name! "|=" then some .or
  else if x = name! "&=" then some .and
  else none

/-- The length of an array type: numbers and constants, multiplied. -/
def parseLen : (fuel : Nat) → P Len
  | 0, _ => none
  | fuel + 1, ts => do
    let (a, ts) ← (match ts with
      | .num n :: ts => some (Len.num n, ts)
      | ts => (parseName ts).map fun (x, ts) => (Len.name x, ts))
    match skipOp (name! "*") ts with
    | some ts => (parseLen fuel ts).map fun (b, ts) => (.mul a b, ts)
    | none => some (a, ts)

mutual
/-- Types. -/
def parseTy : (fuel : Nat) → P Ty
  | 0, _ => none
  | fuel + 1, ts =>
    match ts with
    | .op x :: ts =>
      if x = name! "[" then
        match skipOp (name! "]") ts with
        | some ts => (parseTy fuel ts).map fun (t, ts) => (.slice t, ts)
        | none => do
          let (n, ts) ← parseLen fuel ts
          let ts ← skipOp (name! "]") ts
          let (t, ts) ← parseTy fuel ts
          some (.array n t, ts)
      else if x = name! "*" then (parseTy fuel ts).map fun (t, ts) => (.ptr t, ts)
      else none
    | .word x :: ts' =>
      if x = name! "map" then do
        let ts ← skipOp (name! "[") ts'
        let (k, ts) ← parseTy fuel ts
        let ts ← skipOp (name! "]") ts
        let (v, ts) ← parseTy fuel ts
        some (.map k v, ts)
      else if x = name! "func" then do
        let ts ← skipOp (name! "(") ts'
        let (_, ts) ← parseTypes fuel ts
        match ts with
        | .op y :: ts =>
          if y = name! ")" ∨ y = name! "{" ∨ y = name! "," then some (.fn, .op y :: ts)
          else (parseTy fuel (.op y :: ts)).map fun (_, ts) => (.fn, ts)
        | ts => (parseTy fuel ts).map fun (_, ts) => (.fn, ts)
      else do
        let (x, ts) ← parseName ts
        match skipOp (name! ".") ts with
        | some ts => do
          let (y, ts) ← parseName ts
          match skipOp (name! "[") ts with
          | some ts => do
            let (t, ts) ← parseTy fuel ts
            let ts ← skipOp (name! "]") ts
            some (.inst x y t, ts)
          | none => some (.qual x y, ts)
        | none => some (.name x, ts)
    | _ => none

/-- Types, up to the closing parenthesis. -/
def parseTypes : (fuel : Nat) → P (List (Nat × Ty))
  | 0, _ => none
  | fuel + 1, ts =>
    match skipOp (name! ")") ts with
    | some ts => some ([], ts)
    | none => do
      let (t, ts) ← parseTy fuel ts
      match skipOp (name! ",") ts with
      | some ts => (parseTypes fuel ts).map fun (qs, ts) => ((0, t) :: qs, ts)
      | none => do
        let ts ← skipOp (name! ")") ts
        some ([(0, t)], ts)
end

/-- Parameters with names, up to the closing parenthesis. -/
def parseParams : (fuel : Nat) → P (List (Nat × Ty))
  | 0, _ => none
  | fuel + 1, ts =>
    match skipOp (name! ")") ts with
    | some ts => some ([], ts)
    | none => do
      let (xs, ts) ← parseNames fuel ts
      let (t, ts) ← parseTy fuel ts
      let ps := xs.map fun x => (x, t)
      match skipOp (name! ",") ts with
      | some ts => (parseParams fuel ts).map fun (qs, ts) => (ps ++ qs, ts)
      | none => do
        let ts ← skipOp (name! ")") ts
        some (ps, ts)

/-- The results of a function. -/
def parseResults (fuel : Nat) : P (List (Nat × Ty)) := fun ts =>
  match skipOp (name! "(") ts with
  | some ts =>
    match parseTypes fuel ts with
    | some r => some r
    | none => parseParams fuel ts
  | none =>
    match skipOp (name! "{") ts with
    | some _ => some ([], ts)
    | none => (parseTy fuel ts).map fun (t, ts) => ([(0, t)], ts)

/-- The names of a list of identifiers. -/
def namesOf : Exprs → Option (List Nat)
  | .nil => some []
  | .cons (.ident x) es => (namesOf es).map (x :: ·)
  | _ => none

mutual
/-- An expression whose binary operators have at least this precedence. -/
def parseExpr : (fuel : Nat) → (lit : Bool) → (prec : Nat) → P Expr
  | 0, _, _, _ => none
  | fuel + 1, lit, prec, ts => do
    let (a, ts) ← parseUnary fuel lit ts
    parseBin fuel lit prec a ts

/-- What follows a left operand. -/
def parseBin : (fuel : Nat) → (lit : Bool) → (prec : Nat) → Expr → P Expr
  | 0, _, _, _, _ => none
  | fuel + 1, lit, prec, a, ts =>
    match ts with
    | [] => some (a, [])
    | t :: ts =>
      match binOp t with
      | none => some (a, t :: ts)
      | some (op, p) =>
        if p < prec then some (a, t :: ts)
        else do
          let (b, ts) ← parseExpr fuel lit (p + 1) ts
          parseBin fuel lit prec (.bin op a b) ts

def parseUnary : (fuel : Nat) → (lit : Bool) → P Expr
  | 0, _, _ => none
  | fuel + 1, lit, ts =>
    match skipOp (name! "!") ts, skipOp (name! "&") ts, skipOp (name! "*") ts with
    | some ts, _, _ => (parseUnary fuel lit ts).map fun (e, ts) => (.not e, ts)
    | _, some ts, _ => (parseUnary fuel lit ts).map fun (e, ts) => (.addr e, ts)
    | _, _, some ts => (parseUnary fuel lit ts).map fun (e, ts) => (.deref e, ts)
    | none, none, none => parsePrimary fuel lit ts

/-- Operands, followed by selectors, indices, slices and calls. -/
def parsePrimary : (fuel : Nat) → (lit : Bool) → P Expr
  | 0, _, _ => none
  | fuel + 1, lit, ts =>
    match ts with
    | .num n :: ts => parseSuffix fuel lit (.num n) ts
    | .str n :: ts => parseSuffix fuel lit (.str n) ts
    | .word x :: ts' =>
      if x = name! "map" then (parseTy fuel ts).map fun (t, ts) => (.ty t, ts)
      else if x = name! "func" then do
        let ts ← skipOp (name! "(") ts'
        let (ps, ts) ← parseParams fuel ts
        let (rs, ts) ← parseResults fuel ts
        let ts ← skipOp (name! "{") ts
        let (b, ts) ← parseStmts fuel ts
        parseSuffix fuel lit (.funcLit ps rs b) ts
      else if keywords.contains x then none
      else match lit, skipOp (name! "{") ts' with
        | true, some ts => do
          let (es, ts) ← parseExprs fuel (name! "}") ts
          parseSuffix fuel lit (.comp (.name x) es) ts
        | _, _ => parseSuffix fuel lit (.ident x) ts'
    | .op x :: ts' =>
      if x = name! "(" then do
        let (e, ts) ← parseExpr fuel true 1 ts'
        let ts ← skipOp (name! ")") ts
        parseSuffix fuel lit e ts
      else if x = name! "[" then do
        let (t, ts) ← parseTy fuel ts
        match skipOp (name! "{") ts with
        | some ts => do
          let (es, ts) ← parseExprs fuel (name! "}") ts
          parseSuffix fuel lit (.comp t es) ts
        | none => parseSuffix fuel lit (.ty t) ts
      else none
    | [] => none

def parseSuffix : (fuel : Nat) → (lit : Bool) → Expr → P Expr
  | 0, _, _, _ => none
  | fuel + 1, lit, e, ts =>
    match ts with
    | .op x :: ts =>
      if x = name! "." then do
        let (y, ts) ← parseName ts
        parseSuffix fuel lit (.sel e y) ts
      else if x = name! "(" then do
        let (es, spread, ts) ← parseCallArgs fuel ts
        parseSuffix fuel lit (if spread then .callSpread e es else .call e es) ts
      else if x = name! "[" then do
        let (lo, ts) ← (match skipOp (name! ":") ts with
          | some _ => some (.omitted, ts)
          | none => parseExpr fuel true 1 ts)
        match skipOp (name! ":") ts with
        | none => do
          let ts ← skipOp (name! "]") ts
          parseSuffix fuel lit (.index e lo) ts
        | some ts => do
          let (hi, ts) ← (match skipOp (name! "]") ts with
            | some _ => some (.omitted, ts)
            | none => parseExpr fuel true 1 ts)
          let ts ← skipOp (name! "]") ts
          parseSuffix fuel lit (.slice e lo hi) ts
      else some (e, .op x :: ts)
    | ts => some (e, ts)

/-- The arguments of a call, up to the closing parenthesis, and whether `...` follows the last one. -/
def parseCallArgs : (fuel : Nat) → List Tok → Option (Exprs × Bool × List Tok)
  | 0, _ => none
  | fuel + 1, ts =>
    match skipOp (name! ")") ts with
    | some ts => some (.nil, false, ts)
    | none => do
      let (e, ts) ← parseExpr fuel true 1 ts
      match skipOp (name! ",") ts with
      | some ts => (parseCallArgs fuel ts).map fun (es, s, ts) => (.cons e es, s, ts)
      | none =>
        match skipOp (name! "...") ts with
        | some ts => do
          let ts ← skipOp (name! ")") ts
          some (.cons e .nil, true, ts)
        | none => do
          let ts ← skipOp (name! ")") ts
          some (.cons e .nil, false, ts)

/-- The elements of a composite literal, up to a closing token; a comma may follow the last one. -/
def parseExprs : (fuel : Nat) → (close : Nat) → P Exprs
  | 0, _, _ => none
  | fuel + 1, close, ts =>
    match skipOp close ts with
    | some ts => some (.nil, ts)
    | none => do
      let (e, ts) ← parseExpr fuel true 1 ts
      let (e, ts) ← (match e, skipOp (name! ":") ts with
        | .ident x, some ts => (parseExpr fuel true 1 ts).map fun (e, ts) => (.keyed x e, ts)
        | _, some _ => none
        | e, none => some (e, ts))
      match skipOp (name! ",") ts with
      | some ts => (parseExprs fuel close ts).map fun (es, ts) => (.cons e es, ts)
      | none => do
        let ts ← skipOp close ts
        some (.cons e .nil, ts)

/-- One or more expressions separated by commas. -/
def parseExprList : (fuel : Nat) → (lit : Bool) → P Exprs
  | 0, _, _ => none
  | fuel + 1, lit, ts => do
    let (e, ts) ← parseExpr fuel lit 1 ts
    match skipOp (name! ",") ts with
    | some ts => (parseExprList fuel lit ts).map fun (es, ts) => (.cons e es, ts)
    | none => some (.cons e .nil, ts)

/-- Definitions, assignments, `x++` and expressions as statements. -/
def parseSimple : (fuel : Nat) → (lit : Bool) → P Stmt
  | 0, _, _ => none
  | fuel + 1, lit, ts => do
    let (es, ts) ← parseExprList fuel lit ts
    match ts with
    | .op x :: ts' =>
      if x = name! ":=" then do
        let xs ← namesOf es
        let (rs, ts) ← parseExprList fuel lit ts'
        some (.define xs rs, ts)
      else if x = name! "=" then (parseExprList fuel lit ts').map fun (rs, ts) => (.assign es rs, ts)
      else match es with
        | .cons e .nil =>
          if x = name! "++" then some (.opAssign .add e (.num 1), ts')
          else match assignOp x with
            | some op => (parseExpr fuel lit 1 ts').map fun (r, ts) => (.opAssign op e r, ts)
            | none => some (.expr e, ts)
        | _ => none
    | _ => none

def parseStmt : (fuel : Nat) → P Stmt
  | 0, _ => none
  | fuel + 1, ts =>
    match ts with
    | .word x :: ts' =>
      if x = name! "return" then
        match skipSemi ts' with
        | some _ => some (.ret .nil, ts')
        | none => (parseExprList fuel true ts').map fun (es, ts) => (.ret es, ts)
      else if x = name! "break" then some (.brk, ts')
      else if x = name! "continue" then some (.cont, ts')
      else if x = name! "var" then do
        let (xs, ts) ← parseNames fuel ts'
        let (t, ts) ← parseTy fuel ts
        some (.varDecl xs t, ts)
      else if x = name! "if" then parseIf fuel ts'
      else if x = name! "for" then parseFor fuel ts'
      else if x = name! "switch" then do
        -- without a tag, `true` is meant
        let (e, ts) ← (match skipOp (name! "{") ts' with
          | some _ => some (Expr.ident (name! "true"), ts')
          | none => parseExpr fuel false 1 ts')
        let ts ← skipOp (name! "{") ts
        let (cs, ts) ← parseClauses fuel ts
        some (.switch e cs, ts)
      else parseSimple fuel true ts
    | .op x :: ts' =>
      if x = name! "{" then (parseStmts fuel ts').map fun (b, ts) => (.block b, ts)
      else parseSimple fuel true ts
    | _ => parseSimple fuel true ts

/-- What follows the word `for`. -/
def parseFor : (fuel : Nat) → P Stmt
  | 0, _ => none
  | fuel + 1, ts =>
    match skipOp (name! "{") ts with
    | some ts => (parseStmts fuel ts).map fun (b, ts) => (.loop .skip .omitted .skip b, ts)
    | none =>
      match parseRange fuel ts with
      | some r => some r
      | none => do
        let (i, ts) ← parseSimple fuel false ts
        let ts ← skipOp (name! ";") ts
        let (c, ts) ← parseExpr fuel false 1 ts
        let ts ← skipOp (name! ";") ts
        let (p, ts) ← parseSimple fuel false ts
        let ts ← skipOp (name! "{") ts
        let (b, ts) ← parseStmts fuel ts
        some (.loop i c p b, ts)

/-- `k, v := range e { … }` -/
def parseRange : (fuel : Nat) → P Stmt
  | 0, _ => none
  | fuel + 1, ts => do
    let (xs, ts) ← parseNames fuel ts
    let ts ← skipOp (name! ":=") ts
    let ts ← skipWord (name! "range") ts
    let (e, ts) ← parseExpr fuel false 1 ts
    let ts ← skipOp (name! "{") ts
    let (b, ts) ← parseStmts fuel ts
    match xs with
    | [k] => some (.range k 0 e b, ts)
    | [k, v] => some (.range k v e b, ts)
    | _ => none

/-- What follows the word `if`. -/
def parseIf : (fuel : Nat) → P Stmt
  | 0, _ => none
  | fuel + 1, ts => do
    let (s, ts) ← parseSimpleOrCond fuel ts
    let (i, c, ts) ← (match skipOp (name! ";") ts with
      | some ts => (parseExpr fuel false 1 ts).map fun (c, ts) => (s, c, ts)
      | none =>
        match s with
        | .expr c => some (.skip, c, ts)
        | _ => none)
    let ts ← skipOp (name! "{") ts
    let (thn, ts) ← parseStmts fuel ts
    match skipWord (name! "else") ts with
    | none => some (.ifThen i c thn .nil, ts)
    | some ts =>
      match skipWord (name! "if") ts with
      | some ts => (parseIf fuel ts).map fun (s, ts) => (.ifThen i c thn (.cons s .nil), ts)
      | none => do
        let ts ← skipOp (name! "{") ts
        let (els, ts) ← parseStmts fuel ts
        some (.ifThen i c thn els, ts)

/-- A simple statement in the header of `if`, or the condition. -/
def parseSimpleOrCond : (fuel : Nat) → P Stmt
  | 0, _ => none
  | fuel + 1, ts => parseSimple fuel false ts

/-- Statements up to the closing brace. -/
def parseStmts : (fuel : Nat) → P Stmts
  | 0, _ => none
  | fuel + 1, ts =>
    match skipOp (name! "}") ts with
    | some ts => some (.nil, ts)
    | none => do
      let (s, ts) ← parseStmt fuel ts
      let ts ← skipSemi ts
      (parseStmts fuel ts).map fun (ss, ts) => (.cons s ss, ts)

/-- The statements of a clause: up to the next `case` or `default`, or the closing brace, which is left. -/
def parseClauseBody : (fuel : Nat) → P Stmts
  | 0, _ => none
  | fuel + 1, ts =>
    match skipOp (name! "}") ts, skipWord (name! "case") ts, skipWord (name! "default") ts with
    | none, none, none => do
      let (s, ts) ← parseStmt fuel ts
      let ts ← skipSemi ts
      (parseClauseBody fuel ts).map fun (ss, ts) => (.cons s ss, ts)
    | _, _, _ => some (.nil, ts)

/-- The clauses of a `switch`, up to the closing brace. -/
def parseClauses : (fuel : Nat) → P Clauses
  | 0, _ => none
  | fuel + 1, ts =>
    match skipOp (name! "}") ts with
    | some ts => some (.nil, ts)
    | none =>
      match skipWord (name! "case") ts with
      | some ts => do
        let (es, ts) ← parseExprList fuel false ts
        let ts ← skipOp (name! ":") ts
        let (b, ts) ← parseClauseBody fuel ts
        (parseClauses fuel ts).map fun (cs, ts) => (.case es b cs, ts)
      | none => do
        let ts ← skipWord (name! "default") ts
        let ts ← skipOp (name! ":") ts
        let (b, ts) ← parseClauseBody fuel ts
        (parseClauses fuel ts).map fun (cs, ts) => (.dflt b cs, ts)
end

/-- What follows the word `func`. -/
def parseFunc (fuel : Nat) : P Func := fun ts => do
  let (recv, ts) ← (match skipOp (name! "(") ts with
    | some ts => (parseParams fuel ts).bind fun (ps, ts) =>
      match ps with
      | [p] => some (some p, ts)
      | _ => none
    | none => some (none, ts))
  let (name, ts) ← parseName ts
  let ts ← skipOp (name! "(") ts
  let (params, ts) ← parseParams fuel ts
  let (results, ts) ← parseResults fuel ts
  let ts ← skipOp (name! "{") ts
  let (body, ts) ← parseStmts fuel ts
  some ({ recv, name, params, results, body }, ts)

/-- The fields of a struct type, up to the closing brace. -/
def parseFields : (fuel : Nat) → P (List (Nat × Ty))
  | 0, _ => none
  | fuel + 1, ts =>
    match skipOp (name! "}") ts with
    | some ts => some ([], ts)
    | none => do
      let (xs, ts) ← parseNames fuel ts
      let (t, ts) ← parseTy fuel ts
      let ts ← skipSemi ts
      (parseFields fuel ts).map fun (qs, ts) => (xs.map (fun x => (x, t)) ++ qs, ts)

/-- The specifications in `const ( … )`: `x T = e`, `x = e`, or `x`, which repeats the type and the expression before. -/
def parseConsts : (fuel : Nat) → (iota : Nat) → Option (Option Ty × Expr) → P (List Decl)
  | 0, _, _, _ => none
  | fuel + 1, iota, last, ts =>
    match skipOp (name! ")") ts with
    | some ts => some ([], ts)
    | none => do
      let (x, ts) ← parseName ts
      let (te, ts) ← (match skipSemi ts with
        | some _ => last.map fun te => (te, ts)
        | none => do
          let (t, ts) ← (match skipOp (name! "=") ts with
            | some _ => some (none, ts)
            | none => (parseTy fuel ts).map fun (t, ts) => (some t, ts))
          let ts ← skipOp (name! "=") ts
          let (e, ts) ← parseExpr fuel true 1 ts
          some ((t, e), ts))
      let ts ← skipSemi ts
      (parseConsts fuel (iota + 1) (some te) ts).map fun (ds, ts) => (.const x te.1 te.2 iota :: ds, ts)

/-- The declarations of a file, up to its end. -/
def parseDecls : (fuel : Nat) → List Tok → Option (List Decl)
  | 0, _ => none
  | _ + 1, [] => some []
  | fuel + 1, .word x :: ts =>
    if x = name! "func" then do
      let (f, ts) ← parseFunc fuel ts
      let ts ← skipOp (name! ";") ts
      (parseDecls fuel ts).map (.func f :: ·)
    else if x = name! "const" then
      match skipOp (name! "(") ts with
      | some ts => do
        let (ds, ts) ← parseConsts fuel 0 none ts
        let ts ← skipOp (name! ";") ts
        (parseDecls fuel ts).map (ds ++ ·)
      | none => do
        let (y, ts) ← parseName ts
        let ts ← skipOp (name! "=") ts
        let (e, ts) ← parseExpr fuel true 1 ts
        let ts ← skipOp (name! ";") ts
        (parseDecls fuel ts).map (.const y none e 0 :: ·)
    else if x = name! "var" then do
      let (y, ts) ← parseName ts
      match skipOp (name! "=") ts with
      | some ts => do
        let (e, ts) ← parseExpr fuel true 1 ts
        let ts ← skipOp (name! ";") ts
        (parseDecls fuel ts).map (.var y e :: ·)
      | none => do
        let (t, ts) ← parseTy fuel ts
        let ts ← skipOp (name! ";") ts
        (parseDecls fuel ts).map (.varZero y t :: ·)
    else if x = name! "type" then do
      let (y, ts) ← parseName ts
      match skipWord (name! "struct") ts with
      | some ts => do
        let ts ← skipOp (name! "{") ts
        let (fs, ts) ← parseFields fuel ts
        let ts ← skipOp (name! ";") ts
        (parseDecls fuel ts).map (.struct y fs :: ·)
      | none => do
        let (t, ts) ← parseTy fuel ts
        let ts ← skipOp (name! ";") ts
        (parseDecls fuel ts).map (.type y t :: ·)
    else none
  | _ + 1, _ => none

/-- A source file. -/
def parseFile (ts : List Tok) : Option File := do
  let fuel := 2 * ts.length + 10
  let ts ← skipWord (name! "package") ts
  let (pkg, ts) ← parseName ts
  let ts ← skipOp (name! ";") ts
  let (imports, ts) ← (match skipWord (name! "import") ts with
    | none => some ([], ts)
    | some ts => do
      let ts ← skipOp (name! "(") ts
      let (ps, ts) ← parseImports fuel ts
      let ts ← skipOp (name! ";") ts
      some (ps, ts))
  let decls ← parseDecls fuel ts
  some { pkg, imports, decls }

/-- A source file, given its lines. -/
def parseSource (lines : List Nat) : Option File := (lexLines lines).bind parseFile

end Textseg.GoMem
