import Verif.Model.Text
/-!
# The syntax of a part of Go

Abstract syntax of the part of the language (go.dev/ref/spec) in which the files that users of the library execute are written:
textseg/grapheme_clusters.go, textseg/internal/machine/state.go, textseg/internal/charprops/property_table.go, properties.go and
property_table_raw.go. Names and string literals are numbers, whose digits in base 256 are the bytes (`name! "len"`,
`Model/Text.lean`).
-/

namespace Textseg.GoLang

open Lean Elab Term in
/-- The number of a name. -/
elab "name! " s:str : term => do
  let bytes := s.getString.toUTF8.data
  return mkNatLit (bytes.foldr (fun b n => b.toNat + 256 * n) 0)

/-- A type: `int`, `charprops.State`, `[]byte`, `[...]uint8`. -/
inductive Ty where
  | name (x : Nat)
  | qual (pkg x : Nat)
  | slice (elem : Ty)
  | array (elem : Ty)
deriving DecidableEq, Repr

inductive BinOp where
  | lor | land | eq | ne | lt | le | gt | ge | add | sub | or | mul | shl | and
deriving DecidableEq, Repr

mutual
/-- Expressions. -/
inductive Expr where
  | ident (x : Nat)
  /-- an integer literal -/
  | num (n : Nat)
  /-- a string literal -/
  | str (n : Nat)
  | sel (e : Expr) (x : Nat)
  | call (f : Expr) (args : Exprs)
  | index (e i : Expr)
  /-- `e[lo:]` -/
  | sliceFrom (e lo : Expr)
  /-- `e[:hi]` -/
  | sliceTo (e hi : Expr)
  | bin (op : BinOp) (a b : Expr)
  /-- `T{…}` for a slice or array type -/
  | comp (t : Ty) (elems : Exprs)

/-- Lists of expressions. -/
inductive Exprs where
  | nil
  | cons (e : Expr) (es : Exprs)
end
deriving instance Repr for Expr, Exprs

mutual
/-- Statements. -/
inductive Stmt where
  /-- `x, y := …` -/
  | define (xs : List Nat) (es : Exprs)
  /-- `x = e` -/
  | assign (x : Nat) (e : Expr)
  /-- `x op= e`, `x++` -/
  | opAssign (op : BinOp) (x : Nat) (e : Expr)
  /-- an expression as a statement -/
  | expr (e : Expr)
  | ret (es : Exprs)
  | ifThen (cond : Expr) (thn els : Stmts)
  /-- `for { … }` -/
  | forever (body : Stmts)
  /-- `for init; cond; post { … }` -/
  | loop (init : Stmt) (cond : Expr) (post : Stmt) (body : Stmts)
  /-- `switch tag { … }` -/
  | switch (tag : Expr) (clauses : Clauses)
  /-- `switch { … }` -/
  | switchTrue (clauses : Clauses)

/-- Sequences of statements. -/
inductive Stmts where
  | nil
  | cons (s : Stmt) (ss : Stmts)

/-- The clauses of a `switch`. -/
inductive Clauses where
  | nil
  /-- `case es: body` -/
  | case (es : Exprs) (body : Stmts) (rest : Clauses)
  /-- `default: body` -/
  | dflt (body : Stmts) (rest : Clauses)
end
deriving instance Repr for Stmt, Stmts, Clauses

/-- A function or method. A result without a name has the name 0. -/
structure Func where
  recv : Option (Nat × Ty)
  name : Nat
  params : List (Nat × Ty)
  results : List (Nat × Ty)
  body : Stmts
deriving Repr

/-- Declarations of a package. -/
inductive Decl where
  | func (f : Func)
  /-- a constant; implicit repetition is resolved by the parser, `iota` is the value of `iota` -/
  | const (x : Nat) (t : Option Ty) (e : Expr) (iota : Nat)
  /-- `var x T` -/
  | varZero (x : Nat) (t : Ty)
  /-- `var x = e` -/
  | var (x : Nat) (e : Expr)
  /-- `type x t` -/
  | type (x : Nat) (t : Ty)
deriving Repr

/-- A source file: the package, the imported paths and the declarations. -/
structure File where
  pkg : Nat
  imports : List Nat
  decls : List Decl
deriving Repr

end Textseg.GoLang
