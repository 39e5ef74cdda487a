import Verif.GoLang.Lexer
/-!
# Parser for a part of Go

A recursive descent parser for the abstract syntax of `GoLang/Syntax.lean`, after the grammar of go.dev/ref/spec. What is not in
the part of the language that is covered is an error (`none`).
-/

namespace Textseg.GoLang
open Textseg

/-- A parser: from the tokens to a result and the remaining tokens. -/
abbrev P (α : Type) := List Tok → Option (α × List Tok)

/-- The operator or punctuation mark `x` comes next. -/
def skipOp (x : Nat) : List Tok → Option (List Tok)
  | .op y :: ts => if x = y then some ts else none
  | _ => none

/-- The word `x` comes next. -/
def skipWord (x : Nat) : List Tok → Option (List Tok)
  | .word y :: ts => if x = y then some ts else none
  | _ => none

/-- An identifier. -/
def parseName : P Nat
  | .word x :: ts => if keywords.contains x then none else some (x, ts)
  | _ => none

/-- Skips a semicolon; before a closing parenthesis or brace it may be left out. -/
def skipSemi : List Tok → Option (List Tok)
  | .op x :: ts =>
    if x = name! ";" then some ts
    else if x = name! ")" ∨ x = name! "}" then some (.op x :: ts) else none
  | _ => none

/-- The binary operator of a token, with its precedence. -/
def binOp : Tok → Option (BinOp × Nat)
  | .op x =>
    if x = name! "||" then some (.lor, 1)
    else if x = name! "&&" then some (.land, 2)
    else if x = name! "==" then some (.eq, 3)
    else if x = name! "!=" then some (.ne, 3)
    else if x = name! "<" then some (.lt, 3)
    else if x = name! "<=" then some (.le, 3)
    else if x = name! ">" then some (.gt, 3)
    else if x = name! ">=" then some (.ge, 3)
    else if x = name! "+" then some (.add, 4)
    else if x = name! "-" then some (.sub, 4)
    else if x = name! "|" then some (.or, 4)
    else if x = name! "*" then some (.mul, 5)
    else if x = name! "<<" then some (.shl, 5)
    else if x = name! "&" then some (.and, 5)
    else none
  | _ => none

/-- Types. -/
def parseTy : (fuel : Nat) → P Ty
  | 0, _ => none
  | fuel + 1, ts =>
    match ts with
    | .op x :: ts =>
      if x = name! "[" then
        match skipOp (name! "]") ts with
        | some ts => (parseTy fuel ts).map fun (t, ts) => (.slice t, ts)
        | none => do
          let ts ← skipOp (name! "...") ts
          let ts ← skipOp (name! "]") ts
          let (t, ts) ← parseTy fuel ts
          some (.array t, ts)
      else none
    | ts => do
      let (x, ts) ← parseName ts
      match skipOp (name! ".") ts with
      | some ts => (parseName ts).map fun (y, ts) => (.qual x y, ts)
      | none => some (.name x, ts)

mutual
/-- An expression whose binary operators have at least this precedence. -/
def parseExpr : (fuel : Nat) → (prec : Nat) → P Expr
  | 0, _, _ => none
  | fuel + 1, prec, ts => do
    let (a, ts) ← parsePrimary fuel ts
    parseBin fuel prec a ts

/-- What follows a left operand. -/
def parseBin : (fuel : Nat) → (prec : Nat) → Expr → P Expr
  | 0, _, _, _ => none
  | fuel + 1, prec, a, ts =>
    match ts with
    | [] => some (a, [])
    | t :: ts =>
      match binOp t with
      | none => some (a, t :: ts)
      | some (op, p) =>
        if p < prec then some (a, t :: ts)
        else do
          let (b, ts) ← parseExpr fuel (p + 1) ts
          parseBin fuel prec (.bin op a b) ts

/-- Operands, followed by selectors, indices, slices and calls. -/
def parsePrimary : (fuel : Nat) → P Expr
  | 0, _ => none
  | fuel + 1, ts =>
    match ts with
    | .num n :: ts => parseSuffix fuel (.num n) ts
    | .str n :: ts => parseSuffix fuel (.str n) ts
    | .word x :: ts => if keywords.contains x then none else parseSuffix fuel (.ident x) ts
    | .op x :: ts =>
      if x = name! "(" then do
        let (e, ts) ← parseExpr fuel 1 ts
        let ts ← skipOp (name! ")") ts
        parseSuffix fuel e ts
      else if x = name! "[" then do
        let (t, ts) ← parseTy fuel (.op x :: ts)
        let ts ← skipOp (name! "{") ts
        let (es, ts) ← parseExprs fuel (name! "}") ts
        parseSuffix fuel (.comp t es) ts
      else none
    | [] => none

def parseSuffix : (fuel : Nat) → Expr → P Expr
  | 0, _, _ => none
  | fuel + 1, e, ts =>
    match ts with
    | .op x :: ts =>
      if x = name! "." then do
        let (y, ts) ← parseName ts
        parseSuffix fuel (.sel e y) ts
      else if x = name! "(" then do
        let (es, ts) ← parseExprs fuel (name! ")") ts
        parseSuffix fuel (.call e es) ts
      else if x = name! "[" then
        match skipOp (name! ":") ts with
        | some ts => do
          let (hi, ts) ← parseExpr fuel 1 ts
          let ts ← skipOp (name! "]") ts
          parseSuffix fuel (.sliceTo e hi) ts
        | none => do
          let (i, ts) ← parseExpr fuel 1 ts
          match skipOp (name! "]") ts with
          | some ts => parseSuffix fuel (.index e i) ts
          | none => do
            let ts ← skipOp (name! ":") ts
            let ts ← skipOp (name! "]") ts
            parseSuffix fuel (.sliceFrom e i) ts
      else some (e, .op x :: ts)
    | ts => some (e, ts)

/-- Expressions separated by commas, up to a closing token; a comma may follow the last one. -/
def parseExprs : (fuel : Nat) → (close : Nat) → P Exprs
  | 0, _, _ => none
  | fuel + 1, close, ts =>
    match skipOp close ts with
    | some ts => some (.nil, ts)
    | none => do
      let (e, ts) ← parseExpr fuel 1 ts
      match skipOp (name! ",") ts with
      | some ts => (parseExprs fuel close ts).map fun (es, ts) => (.cons e es, ts)
      | none => do
        let ts ← skipOp close ts
        some (.cons e .nil, ts)
end

/-- One or more expressions separated by commas. -/
def parseExprList : (fuel : Nat) → P Exprs
  | 0, _ => none
  | fuel + 1, ts => do
    let (e, ts) ← parseExpr (fuel + 1) 1 ts
    match skipOp (name! ",") ts with
    | some ts => (parseExprList fuel ts).map fun (es, ts) => (.cons e es, ts)
    | none => some (.cons e .nil, ts)

/-- The names of a list of identifiers. -/
def namesOf : Exprs → Option (List Nat)
  | .nil => some []
  | .cons (.ident x) es => (namesOf es).map (x :: ·)
  | _ => none

/-- Definitions, assignments, `x++` and expressions as statements. -/
def parseSimple (fuel : Nat) : P Stmt := fun ts => do
  let (es, ts) ← parseExprList fuel ts
  match ts with
  | .op x :: ts' =>
    if x = name! ":=" then do
      let xs ← namesOf es
      let (rs, ts) ← parseExprList fuel ts'
      some (.define xs rs, ts)
    else if x = name! "=" then
      match es with
      | .cons (.ident y) .nil => (parseExpr fuel 1 ts').map fun (e, ts) => (.assign y e, ts)
      | _ => none
    else if x = name! "+=" then
      match es with
      | .cons (.ident y) .nil => (parseExpr fuel 1 ts').map fun (e, ts) => (.opAssign .add y e, ts)
      | _ => none
    else if x = name! "++" then
      match es with
      | .cons (.ident y) .nil => some (.opAssign .add y (.num 1), ts')
      | _ => none
    else match es with
      | .cons e .nil => some (.expr e, ts)
      | _ => none
  | _ => none

mutual
def parseStmt : (fuel : Nat) → P Stmt
  | 0, _ => none
  | fuel + 1, ts =>
    match ts with
    | .word x :: ts' =>
      if x = name! "return" then
        match skipSemi ts' with
        | some _ => some (.ret .nil, ts')
        | none => (parseExprList fuel ts').map fun (es, ts) => (.ret es, ts)
      else if x = name! "if" then parseIf fuel ts'
      else if x = name! "for" then
        match skipOp (name! "{") ts' with
        | some ts => (parseStmts fuel ts).map fun (b, ts) => (.forever b, ts)
        | none => do
          let (i, ts) ← parseSimple fuel ts'
          let ts ← skipOp (name! ";") ts
          let (c, ts) ← parseExpr fuel 1 ts
          let ts ← skipOp (name! ";") ts
          let (p, ts) ← parseSimple fuel ts
          let ts ← skipOp (name! "{") ts
          let (b, ts) ← parseStmts fuel ts
          some (.loop i c p b, ts)
      else if x = name! "switch" then
        match skipOp (name! "{") ts' with
        | some ts => (parseClauses fuel ts).map fun (cs, ts) => (.switchTrue cs, ts)
        | none => do
          let (e, ts) ← parseExpr fuel 1 ts'
          let ts ← skipOp (name! "{") ts
          let (cs, ts) ← parseClauses fuel ts
          some (.switch e cs, ts)
      else parseSimple fuel ts
    | _ => parseSimple fuel ts

/-- What follows the word `if`. -/
def parseIf : (fuel : Nat) → P Stmt
  | 0, _ => none
  | fuel + 1, ts => do
    let (c, ts) ← parseExpr fuel 1 ts
    let ts ← skipOp (name! "{") ts
    let (thn, ts) ← parseStmts fuel ts
    match skipWord (name! "else") ts with
    | none => some (.ifThen c thn .nil, ts)
    | some ts =>
      match skipWord (name! "if") ts with
      | some ts => (parseIf fuel ts).map fun (s, ts) => (.ifThen c thn (.cons s .nil), ts)
      | none => do
        let ts ← skipOp (name! "{") ts
        let (els, ts) ← parseStmts fuel ts
        some (.ifThen c thn els, ts)

/-- Statements up to the closing brace. -/
def parseStmts : (fuel : Nat) → P Stmts
  | 0, _ => none
  | fuel + 1, ts =>
    match skipOp (name! "}") ts with
    | some ts => some (.nil, ts)
    | none => do
      let (s, ts) ← parseStmt fuel ts
      let ts ← skipSemi ts
      (parseStmts fuel ts).map fun (ss, ts) => (.cons s ss, ts)

/-- The statements of a clause: up to the next `case` or `default`, or the closing brace, which is left. -/
def parseClauseBody : (fuel : Nat) → P Stmts
  | 0, _ => none
  | fuel + 1, ts =>
    match skipOp (name! "}") ts, skipWord (name! "case") ts, skipWord (name! "default") ts with
    | none, none, none => do
      let (s, ts) ← parseStmt fuel ts
      let ts ← skipSemi ts
      (parseClauseBody fuel ts).map fun (ss, ts) => (.cons s ss, ts)
    | _, _, _ => some (.nil, ts)

/-- The clauses of a `switch`, up to the closing brace. -/
def parseClauses : (fuel : Nat) → P Clauses
  | 0, _ => none
  | fuel + 1, ts =>
    match skipOp (name! "}") ts with
    | some ts => some (.nil, ts)
    | none =>
      match skipWord (name! "case") ts with
      | some ts => do
        let (es, ts) ← parseExprList fuel ts
        let ts ← skipOp (name! ":") ts
        let (b, ts) ← parseClauseBody fuel ts
        (parseClauses fuel ts).map fun (cs, ts) => (.case es b cs, ts)
      | none => do
        let ts ← skipWord (name! "default") ts
        let ts ← skipOp (name! ":") ts
        let (b, ts) ← parseClauseBody fuel ts
        (parseClauses fuel ts).map fun (cs, ts) => (.dflt b cs, ts)
end

/-- The names of a group of parameters `a, b T`. -/
def parseNames : (fuel : Nat) → P (List Nat)
  | 0, _ => none
  | fuel + 1, ts => do
    let (x, ts) ← parseName ts
    match skipOp (name! ",") ts with
    | some ts => (parseNames fuel ts).map fun (xs, ts) => (x :: xs, ts)
    | none => some ([x], ts)

/-- Parameters with names, up to the closing parenthesis. -/
def parseParams : (fuel : Nat) → P (List (Nat × Ty))
  | 0, _ => none
  | fuel + 1, ts =>
    match skipOp (name! ")") ts with
    | some ts => some ([], ts)
    | none => do
      let (xs, ts) ← parseNames fuel ts
      let (t, ts) ← parseTy fuel ts
      let ps := xs.map fun x => (x, t)
      match skipOp (name! ",") ts with
      | some ts => (parseParams fuel ts).map fun (qs, ts) => (ps ++ qs, ts)
      | none => do
        let ts ← skipOp (name! ")") ts
        some (ps, ts)

/-- Types of results without names, up to the closing parenthesis. -/
def parseTypes : (fuel : Nat) → P (List (Nat × Ty))
  | 0, _ => none
  | fuel + 1, ts => do
    let (t, ts) ← parseTy fuel ts
    match skipOp (name! ",") ts with
    | some ts => (parseTypes fuel ts).map fun (qs, ts) => ((0, t) :: qs, ts)
    | none => do
      let ts ← skipOp (name! ")") ts
      some ([(0, t)], ts)

/-- The results of a function. -/
def parseResults (fuel : Nat) : P (List (Nat × Ty)) := fun ts =>
  match skipOp (name! "(") ts with
  | some ts =>
    match parseTypes fuel ts with
    | some r => some r
    | none => parseParams fuel ts
  | none =>
    match skipOp (name! "{") ts with
    | some _ => some ([], ts)
    | none => (parseTy fuel ts).map fun (t, ts) => ([(0, t)], ts)

/-- What follows the word `func`. -/
def parseFunc (fuel : Nat) : P Func := fun ts => do
  let (recv, ts) ← (match skipOp (name! "(") ts with
    | some ts => (parseParams fuel ts).bind fun (ps, ts) =>
      match ps with
      | [p] => some (some p, ts)
      | _ => none
    | none => some (none, ts))
  let (name, ts) ← parseName ts
  let ts ← skipOp (name! "(") ts
  let (params, ts) ← parseParams fuel ts
  let (results, ts) ← parseResults fuel ts
  let ts ← skipOp (name! "{") ts
  let (body, ts) ← parseStmts fuel ts
  some ({ recv, name, params, results, body }, ts)

/-- The specifications in `const ( … )`: `x T = e`, `x = e`, or `x`, which repeats the type and the expression before. -/
def parseConsts : (fuel : Nat) → (iota : Nat) → Option (Option Ty × Expr) → P (List Decl)
  | 0, _, _, _ => none
  | fuel + 1, iota, last, ts =>
    match skipOp (name! ")") ts with
    | some ts => some ([], ts)
    | none => do
      let (x, ts) ← parseName ts
      let (te, ts) ← (match skipSemi ts with
        | some _ => last.map fun te => (te, ts)
        | none => do
          let (t, ts) ← (match skipOp (name! "=") ts with
            | some _ => some (none, ts)
            | none => (parseTy fuel ts).map fun (t, ts) => (some t, ts))
          let ts ← skipOp (name! "=") ts
          let (e, ts) ← parseExpr fuel 1 ts
          some ((t, e), ts))
      let ts ← skipSemi ts
      (parseConsts fuel (iota + 1) (some te) ts).map fun (ds, ts) => (.const x te.1 te.2 iota :: ds, ts)

/-- The paths in `import ( … )`. -/
def parseImports : (fuel : Nat) → P (List Nat)
  | 0, _ => none
  | fuel + 1, ts =>
    match skipOp (name! ")") ts with
    | some ts => some ([], ts)
    | none =>
      match ts with
      | .str p :: ts => do
        let ts ← skipSemi ts
        (parseImports fuel ts).map fun (ps, ts) => (p :: ps, ts)
      | _ => none

/-- The declarations of a file, up to its end. -/
def parseDecls : (fuel : Nat) → List Tok → Option (List Decl)
  | 0, _ => none
  | _ + 1, [] => some []
  | fuel + 1, .word x :: ts =>
    if x = name! "func" then do
      let (f, ts) ← parseFunc fuel ts
      let ts ← skipOp (name! ";") ts
      (parseDecls fuel ts).map (.func f :: ·)
    else if x = name! "const" then
      match skipOp (name! "(") ts with
      | some ts => do
        let (ds, ts) ← parseConsts fuel 0 none ts
        let ts ← skipOp (name! ";") ts
        (parseDecls fuel ts).map (ds ++ ·)
      | none => do
        let (y, ts) ← parseName ts
        let ts ← skipOp (name! "=") ts
        let (e, ts) ← parseExpr fuel 1 ts
        let ts ← skipOp (name! ";") ts
        (parseDecls fuel ts).map (.const y none e 0 :: ·)
    else if x = name! "var" then do
      let (y, ts) ← parseName ts
      match skipOp (name! "=") ts with
      | some ts => do
        let (e, ts) ← parseExpr fuel 1 ts
        let ts ← skipOp (name! ";") ts
        (parseDecls fuel ts).map (.var y e :: ·)
      | none => do
        let (t, ts) ← parseTy fuel ts
        let ts ← skipOp (name! ";") ts
        (parseDecls fuel ts).map (.varZero y t :: ·)
    else if x = name! "type" then do
      let (y, ts) ← parseName ts
      let (t, ts) ← parseTy fuel ts
      let ts ← skipOp (name! ";") ts
      (parseDecls fuel ts).map (.type y t :: ·)
    else none
  | _ + 1, _ => none

/-- A source file. -/
def parseFile (ts : List Tok) : Option File := do
  let fuel := ts.length + 1
  let ts ← skipWord (name! "package") ts
  let (pkg, ts) ← parseName ts
  let ts ← skipOp (name! ";") ts
  let (imports, ts) ← (match skipWord (name! "import") ts with
    | none => some ([], ts)
    | some ts => do
      let ts ← skipOp (name! "(") ts
      let (ps, ts) ← parseImports fuel ts
      let ts ← skipOp (name! ";") ts
      some (ps, ts))
  let decls ← parseDecls fuel ts
  some { pkg, imports, decls }

/-- A source file, given its lines. -/
def parseSource (lines : List Nat) : Option File := (lexLines lines).bind parseFile

end Textseg.GoLang
