import Verif.GoLang.Syntax
/-!
# The syntax of a larger part of Go

Abstract syntax of the part of the language (go.dev/ref/spec) in which the generator of the tables and the parsers of the data files
are written: gentable/generate.go, gentable/property_tree.go, ucdparse/ucd_scan.go, ucdparse/testdata_scan.go. Beyond
`GoLang/Syntax.lean` there are pointers, structs, maps, arrays, slices that are written to, `range`, `break` and `continue`,
function literals.
-/

namespace Textseg.GoMem
open Textseg

/-- The length of an array type: a constant expression. -/
inductive Len where
  | num (n : Nat)
  | name (x : Nat)
  | mul (a b : Len)
deriving DecidableEq, Repr

inductive Ty where
  | name (x : Nat)
  | qual (pkg x : Nat)
  | slice (elem : Ty)
  | array (len : Len) (elem : Ty)
  | ptr (t : Ty)
  | map (key val : Ty)
  /-- a function type, without its parameters and results -/
  | fn
  /-- an instance of a generic type, `iter.Seq[string]` -/
  | inst (pkg x : Nat) (arg : Ty)
deriving DecidableEq, Repr

inductive BinOp where
  | lor | land | eq | ne | lt | le | gt | ge | add | sub | or | mul | rem | shl | shr | and
deriving DecidableEq, Repr

mutual
/-- Expressions. -/
inductive Expr where
  | ident (x : Nat)
  /-- an integer literal, or a character literal -/
  | num (n : Nat)
  /-- a string literal -/
  | str (n : Nat)
  | sel (e : Expr) (x : Nat)
  | call (f : Expr) (args : Exprs)
  /-- `f(args...)` -/
  | callSpread (f : Expr) (args : Exprs)
  | index (e i : Expr)
  /-- `e[lo:hi]`, where both bounds may be omitted -/
  | slice (e lo hi : Expr)
  | bin (op : BinOp) (a b : Expr)
  | not (e : Expr)
  /-- `&e` -/
  | addr (e : Expr)
  /-- `*e` -/
  | deref (e : Expr)
  /-- `T{…}` -/
  | comp (t : Ty) (elems : Exprs)
  /-- `x: e` in a composite literal -/
  | keyed (x : Nat) (e : Expr)
  /-- a type, where an expression may stand -/
  | ty (t : Ty)
  | funcLit (params : List (Nat × Ty)) (results : List (Nat × Ty)) (body : Stmts)
  /-- nothing (an omitted bound or condition) -/
  | omitted

/-- Lists of expressions. -/
inductive Exprs where
  | nil
  | cons (e : Expr) (es : Exprs)

/-- Statements. -/
inductive Stmt where
  /-- `x, y := …` -/
  | define (xs : List Nat) (es : Exprs)
  /-- `l, m = …` -/
  | assign (ls : Exprs) (es : Exprs)
  /-- `l op= e`, `l++` -/
  | opAssign (op : BinOp) (l e : Expr)
  /-- `var x, y T` -/
  | varDecl (xs : List Nat) (t : Ty)
  /-- an expression as a statement -/
  | expr (e : Expr)
  | ret (es : Exprs)
  /-- `if init; cond { … } else { … }` -/
  | ifThen (init : Stmt) (cond : Expr) (thn els : Stmts)
  /-- `for init; cond; post { … }` -/
  | loop (init : Stmt) (cond : Expr) (post : Stmt) (body : Stmts)
  /-- `for k, v := range e { … }`; the name 0 stands for an omitted variable -/
  | range (k v : Nat) (e : Expr) (body : Stmts)
  /-- `switch tag { … }` -/
  | switch (tag : Expr) (clauses : Clauses)
  | block (ss : Stmts)
  | brk
  | cont
  /-- the empty statement -/
  | skip

/-- Sequences of statements. -/
inductive Stmts where
  | nil
  | cons (s : Stmt) (ss : Stmts)

/-- The clauses of a `switch`. -/
inductive Clauses where
  | nil
  /-- `case es: body` -/
  | case (es : Exprs) (body : Stmts) (rest : Clauses)
  /-- `default: body` -/
  | dflt (body : Stmts) (rest : Clauses)
end
deriving instance Repr for Expr, Exprs, Stmt, Stmts, Clauses

/-- A function or method. A result without a name has the name 0. -/
structure Func where
  recv : Option (Nat × Ty)
  name : Nat
  params : List (Nat × Ty)
  results : List (Nat × Ty)
  body : Stmts
deriving Repr

/-- Declarations of a package. -/
inductive Decl where
  | func (f : Func)
  | const (x : Nat) (t : Option Ty) (e : Expr) (iota : Nat)
  /-- `var x T` -/
  | varZero (x : Nat) (t : Ty)
  /-- `var x = e` -/
  | var (x : Nat) (e : Expr)
  /-- `type x t` -/
  | type (x : Nat) (t : Ty)
  /-- `type x struct { … }` -/
  | struct (x : Nat) (fields : List (Nat × Ty))
deriving Repr

/-- A source file: the package, the imported paths and the declarations. -/
structure File where
  pkg : Nat
  imports : List Nat
  decls : List Decl
deriving Repr

end Textseg.GoMem
