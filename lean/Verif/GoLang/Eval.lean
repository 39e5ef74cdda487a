import Verif.GoLang.Syntax
import Verif.Model.Go
/-!
# The meaning of a part of Go

An interpreter for the abstract syntax of `GoLang/Syntax.lean`, after go.dev/ref/spec. A program that is not well-typed, or uses
what is not covered, is *stuck*; a panic is a different outcome. Values carry their type, so that methods are found and constants
are converted as the compiler does it.

* `int` has `W` bits (a parameter: 32 or 64) and wraps around; `uint8` has 8 bits and wraps around.
* A slice of bytes is a value (the functions covered do not write to slices); `none` is the nil slice. `e[:hi]` panics if `hi`
  exceeds the length (Go: the capacity).
* Calls of functions have a bounded depth and loops a bounded number of iterations (parameters); exceeding a bound is an outcome
  of its own.
* Packages are identified by their names (the last component of the import path).
-/

namespace Textseg.GoLang
open Textseg

/-- What a program does that is seen from outside. -/
inductive Effect where
  /-- a text on the standard error output -/
  | message (s : GoString)
  /-- a file was created, and this was written to it -/
  | file (path : GoString) (content : List UInt8)
deriving DecidableEq, Repr

/-- Why there is no result. -/
inductive Halt where
  | panic (p : GoPanic)
  /-- `os.Exit(n)`, after these effects (`GoMem/Eval.lean` only) -/
  | exit (n : Nat) (effects : List Effect)
  /-- not well-typed, or not covered -/
  | stuck
  /-- the bound on the depth of calls or on the number of iterations was exceeded -/
  | bound
deriving DecidableEq, Repr

abbrev R := Except Halt

/-- A named type: package (0 for the predeclared types) and name. -/
structure TyId where
  pkg : Nat
  name : Nat
deriving DecidableEq, Repr

def tyInt : TyId := ⟨0, name! "int"⟩
def tyU8 : TyId := ⟨0, name! "uint8"⟩

inductive Val where
  /-- an untyped integer constant -/
  | const (i : Int)
  /-- a value of a type whose underlying type is `int` -/
  | int (t : TyId) (i : Int)
  /-- a value of a type whose underlying type is `uint8` -/
  | u8 (t : TyId) (x : UInt8)
  | bool (b : Bool)
  | str (s : GoString)
  /-- a `[]byte` -/
  | bytes (s : Option (List UInt8))
  /-- an array, with elements of a type whose underlying type is `uint8` -/
  | arr (t : TyId) (l : List UInt8)
  /-- `nil` without a type, and the nil value of an interface type -/
  | nil
deriving DecidableEq, Repr

/-- Local variables, the innermost first. -/
abbrev Env := List (Nat × Val)

def Env.get (x : Nat) : Env → Option Val
  | [] => none
  | (y, v) :: env => if x = y then some v else get x env

def Env.set (x : Nat) (v : Val) : Env → Env
  | [] => []
  | (y, w) :: env => if x = y then (y, v) :: env else (y, w) :: set x v env

/-- The name of an imported package: the last component of its path. -/
def lastComponent (path : List UInt8) : List UInt8 := (path.reverse.takeWhile (· != 0x2F)).reverse

def importName (path : Nat) : Nat := (lastComponent (textLine path)).foldr (fun b n => b.toNat + 256 * n) 0

/-- What a package-level name stands for. -/
inductive Global where
  | func (f : Func)
  | const (t : Option Ty) (e : Expr) (iota : Nat)
  | varZero (t : Ty)
  | var (e : Expr)
  | type (t : Ty)

/-- What a name declared in a list of declarations stands for (methods are not meant). -/
def findDecl (x : Nat) : List Decl → Option Global
  | [] => none
  | .func f :: ds => if f.recv = none ∧ f.name = x then some (.func f) else findDecl x ds
  | .const y t e i :: ds => if y = x then some (.const t e i) else findDecl x ds
  | .varZero y t :: ds => if y = x then some (.varZero t) else findDecl x ds
  | .var y e :: ds => if y = x then some (.var e) else findDecl x ds
  | .type y t :: ds => if y = x then some (.type t) else findDecl x ds

/-- The method `x` of the type `t` declared in a list of declarations. -/
def findMethodDecl (t x : Nat) : List Decl → Option Func
  | [] => none
  | .func f :: ds =>
    match f.recv with
    | some (_, .name y) => if y = t ∧ f.name = x then some f else findMethodDecl t x ds
    | _ => findMethodDecl t x ds
  | _ :: ds => findMethodDecl t x ds

/-- A program: its files. -/
abbrev Program := List File

/-- A package-level name: what it stands for, and the imports of the file where it is declared. -/
def find (pkg x : Nat) : Program → Option (Global × List Nat)
  | [] => none
  | f :: fs =>
    if f.pkg = pkg then
      match findDecl x f.decls with
      | some g => some (g, f.imports)
      | none => find pkg x fs
    else find pkg x fs

def findMethod (t : TyId) (x : Nat) : Program → Option (Func × List Nat)
  | [] => none
  | f :: fs =>
    if f.pkg = t.pkg then
      match findMethodDecl t.name x f.decls with
      | some g => some (g, f.imports)
      | none => findMethod t x fs
    else findMethod t x fs

/-- Where an expression is evaluated: the program, the width of `int`, the package, the imports of the file, and the two kinds of
references to other code: a package-level constant or variable, and a call of a function or method. -/
structure Ctx where
  prog : Program
  W : Nat
  pkg : Nat
  imports : List Nat
  global : (pkg x : Nat) → R Val
  callFunc : (pkg x : Nat) → List Val → R (List Val)
  callMethod : Val → (x : Nat) → List Val → R (List Val)

def Ctx.imported (c : Ctx) (x : Nat) : Bool := (c.imports.map importName).contains x

/-- The kinds of types. -/
inductive Kind where
  | int | u8 | bool | str | bytes | error | arr
deriving DecidableEq, Repr

/-- The predeclared types. -/
def predeclared (x : Nat) : Option (Kind × TyId) :=
  if x = name! "int" then some (.int, tyInt)
  else if x = name! "uint8" ∨ x = name! "byte" then some (.u8, tyU8)
  else if x = name! "bool" then some (.bool, ⟨0, x⟩)
  else if x = name! "string" then some (.str, ⟨0, x⟩)
  else if x = name! "error" then some (.error, ⟨0, x⟩)
  else none

/-- The kind of the named type `x` of a package, and its identity. -/
def namedType (prog : Program) (pkg x : Nat) : Option (Kind × TyId) :=
  match find pkg x prog with
  | some (.type (.name y), _) => (predeclared y).map fun (k, _) => (k, ⟨pkg, x⟩)
  | _ => none

/-- The kind of a type, and its identity (for a slice or array: that of the elements). -/
def resolve (c : Ctx) : Ty → Option (Kind × TyId)
  | .name x =>
    match namedType c.prog c.pkg x with
    | some r => some r
    | none => predeclared x
  | .qual p x => if c.imported p then namedType c.prog p x else none
  | .slice t =>
    match resolve c t with
    | some (.u8, t) => if t = tyU8 then some (.bytes, t) else none
    | _ => none
  | .array t =>
    match resolve c t with
    | some (.u8, t) => some (.arr, t)
    | _ => none

/-- The value of an `int` with `W` bits. -/
def wrap (W : Nat) (i : Int) : Int := i.bmod (2 ^ W)

def stuck {α : Type} : R α := .error .stuck

/-- The result of an assignment of `v` to a variable of the given type. -/
def assignTo (W : Nat) : Kind × TyId → Val → R Val
  | (.int, t), .const i => if wrap W i = i then .ok (.int t i) else stuck
  | (.int, t), .int t' i => if t = t' then .ok (.int t i) else stuck
  | (.u8, t), .const i => if 0 ≤ i ∧ i < 256 then .ok (.u8 t (UInt8.ofNat i.toNat)) else stuck
  | (.u8, t), .u8 t' x => if t = t' then .ok (.u8 t x) else stuck
  | (.bool, _), .bool b => .ok (.bool b)
  | (.str, _), .str s => .ok (.str s)
  | (.bytes, _), .bytes s => .ok (.bytes s)
  | (.bytes, _), .nil => .ok (.bytes none)
  | (.error, _), .nil => .ok .nil
  | _, _ => stuck

/-- A conversion `T(v)`. -/
def convert (W : Nat) : Kind × TyId → Val → R Val
  | (.int, t), .int _ i => .ok (.int t i)
  | (.int, t), .u8 _ x => .ok (.int t x.toNat)
  | (.u8, t), .int _ i => .ok (.u8 t (UInt8.ofNat (i.emod 256).toNat))
  | (.u8, t), .u8 _ x => .ok (.u8 t x)
  | kt, v => assignTo W kt v

/-- The zero value of a type. -/
def zeroValue : Kind × TyId → R Val
  | (.int, t) => .ok (.int t 0)
  | (.u8, t) => .ok (.u8 t 0)
  | (.bool, _) => .ok (.bool false)
  | (.str, _) => .ok (.str [])
  | (.bytes, _) => .ok (.bytes none)
  | (.error, _) => .ok .nil
  | (.arr, _) => stuck

/-- The type of the variable that `x := v` declares: that of `v`; `int` for a constant. -/
def defineAs (W : Nat) : Val → R Val
  | .const i => assignTo W (.int, tyInt) (.const i)
  | .nil => stuck
  | v => .ok v

/-- The type of a value. -/
def typeOf : Val → Option (Kind × TyId)
  | .int t _ => some (.int, t)
  | .u8 t _ => some (.u8, t)
  | .bool _ => some (.bool, ⟨0, name! "bool"⟩)
  | .str _ => some (.str, ⟨0, name! "string"⟩)
  | .bytes _ => some (.bytes, tyU8)
  | _ => none

/-- Operators on two `int`s. -/
def intOp (W : Nat) (t : TyId) (op : BinOp) (a b : Int) : R Val :=
  match op with
  | .eq => .ok (.bool (a == b))
  | .ne => .ok (.bool (a != b))
  | .lt => .ok (.bool (decide (a < b)))
  | .le => .ok (.bool (decide (a ≤ b)))
  | .gt => .ok (.bool (decide (a > b)))
  | .ge => .ok (.bool (decide (a ≥ b)))
  | .add => .ok (.int t (wrap W (a + b)))
  | .sub => .ok (.int t (wrap W (a - b)))
  | .mul => .ok (.int t (wrap W (a * b)))
  | _ => stuck

/-- Operators on two `uint8`s. -/
def u8Op (t : TyId) (op : BinOp) (a b : UInt8) : R Val :=
  match op with
  | .eq => .ok (.bool (a == b))
  | .ne => .ok (.bool (a != b))
  | .lt => .ok (.bool (decide (a < b)))
  | .le => .ok (.bool (decide (a ≤ b)))
  | .gt => .ok (.bool (decide (b < a)))
  | .ge => .ok (.bool (decide (b ≤ a)))
  | .add => .ok (.u8 t (a + b))
  | .sub => .ok (.u8 t (a - b))
  | .mul => .ok (.u8 t (a * b))
  | .or => .ok (.u8 t (a ||| b))
  | .and => .ok (.u8 t (a &&& b))
  | _ => stuck

/-- Operators on two untyped constants. -/
def constOp (op : BinOp) (a b : Int) : R Val :=
  match op with
  | .eq => .ok (.bool (a == b))
  | .ne => .ok (.bool (a != b))
  | .lt => .ok (.bool (decide (a < b)))
  | .le => .ok (.bool (decide (a ≤ b)))
  | .gt => .ok (.bool (decide (a > b)))
  | .ge => .ok (.bool (decide (a ≥ b)))
  | .add => .ok (.const (a + b))
  | .sub => .ok (.const (a - b))
  | .mul => .ok (.const (a * b))
  | .shl => if 0 ≤ b then .ok (.const (a * 2 ^ b.toNat)) else stuck
  | _ => stuck

/-- Binary operators (except `&&`, `||`): a constant takes the type of the other operand. The count of a shift is a constant. -/
def binary (W : Nat) (op : BinOp) (a b : Val) : R Val :=
  match op, a, b with
  | .shl, .int t a, .const b => if 0 ≤ b then .ok (.int t (wrap W (a * 2 ^ b.toNat))) else stuck
  | .shl, .int _ _, _ => stuck
  | .shl, .u8 _ _, _ => stuck
  | op, .const a, .const b => constOp op a b
  | op, .int t a, .int t' b => if t = t' then intOp W t op a b else stuck
  | op, .int t a, .const b => if wrap W b = b then intOp W t op a b else stuck
  | op, .const a, .int t b => if wrap W a = a then intOp W t op a b else stuck
  | op, .u8 t a, .u8 t' b => if t = t' then u8Op t op a b else stuck
  | op, .u8 t a, .const b => if 0 ≤ b ∧ b < 256 then u8Op t op a (UInt8.ofNat b.toNat) else stuck
  | op, .const a, .u8 t b => if 0 ≤ a ∧ a < 256 then u8Op t op (UInt8.ofNat a.toNat) b else stuck
  | .add, .str a, .str b => .ok (.str (a ++ b))
  | .eq, .str a, .str b => .ok (.bool (decide (a = b)))
  | .ne, .str a, .str b => .ok (.bool (decide (a ≠ b)))
  | .eq, .bool a, .bool b => .ok (.bool (a == b))
  | .ne, .bool a, .bool b => .ok (.bool (a != b))
  | _, _, _ => stuck

def boolValue : Val → R Bool
  | .bool b => .ok b
  | _ => stuck

/-- All binary operators, for the results of the evaluation of the operands: that of the second operand of `&&` and `||` is used
only if it decides. -/
def operator (W : Nat) (op : BinOp) (a b : R Val) : R Val :=
  match op with
  | .land => do
    let v ← a
    let x ← boolValue v
    if x then do
      let w ← b
      let y ← boolValue w
      .ok (.bool y)
    else .ok (.bool false)
  | .lor => do
    let v ← a
    let x ← boolValue v
    if x then .ok (.bool true)
    else do
      let w ← b
      let y ← boolValue w
      .ok (.bool y)
  | op => do
    let v ← a
    let w ← b
    binary W op v w

/-- A value used as an index or as a bound of a slice. -/
def indexValue : Val → R Int
  | .const i => .ok i
  | .int _ i => .ok i
  | .u8 _ x => .ok x.toNat
  | _ => stuck

/-- `v[i]` -/
def indexOf (v : Val) (i : Int) : R Val :=
  match v with
  | .bytes s => if 0 ≤ i then
      match (s.getD [])[i.toNat]? with
      | some b => .ok (.u8 tyU8 b)
      | none => .error (.panic .indexOutOfRange)
    else .error (.panic .indexOutOfRange)
  | .arr t l => if 0 ≤ i then
      match l[i.toNat]? with
      | some b => .ok (.u8 t b)
      | none => .error (.panic .indexOutOfRange)
    else .error (.panic .indexOutOfRange)
  | _ => stuck

/-- `v[lo:]`; a slice of a nil slice is nil -/
def sliceFromOf (v : Val) (lo : Int) : R Val :=
  match v with
  | .bytes s => if 0 ≤ lo ∧ lo ≤ (s.getD []).length then .ok (.bytes (s.map (·.drop lo.toNat)))
      else .error (.panic .sliceOutOfRange)
  | _ => stuck

/-- `v[:hi]` -/
def sliceToOf (v : Val) (hi : Int) : R Val :=
  match v with
  | .bytes s => if 0 ≤ hi ∧ hi ≤ (s.getD []).length then .ok (.bytes (s.map (·.take hi.toNat)))
      else .error (.panic .sliceOutOfRange)
  | _ => stuck

/-- `len(v)` -/
def lenOf : Val → R Val
  | .bytes s => .ok (.int tyInt (s.getD []).length)
  | .str s => .ok (.int tyInt s.length)
  | .arr _ l => .ok (.int tyInt l.length)
  | _ => stuck

/-- The only value of a call that is used as an operand. -/
def single {α : Type} : List α → R α
  | [v] => .ok v
  | _ => stuck

def hexDigitChar (n : Nat) : UInt8 := if n < 10 then UInt8.ofNat (0x30 + n) else UInt8.ofNat (0x61 + (n - 10))

/-- `fmt.Sprintf` with `%s` (a string, or a value with a method `String`) and `%02x` (a `uint8`). -/
def sprintf (callMethod : Val → (x : Nat) → List Val → R (List Val)) : (format : List UInt8) → List Val → R GoString
  | 0x25 :: 0x73 :: f, v :: vs => do
    let s ← (match v with
      | .str s => .ok s
      | v => do
        match ← callMethod v (name! "String") [] with
        | [.str s] => .ok s
        | _ => stuck)
    let rest ← sprintf callMethod f vs
    .ok (s ++ rest)
  | 0x25 :: 0x30 :: 0x32 :: 0x78 :: f, .u8 _ x :: vs => do
    let rest ← sprintf callMethod f vs
    .ok ([hexDigitChar (x.toNat / 16), hexDigitChar (x.toNat % 16)] ++ rest)
  | 0x25 :: _, _ => stuck
  | b :: f, vs => do
    let rest ← sprintf callMethod f vs
    .ok (b :: rest)
  | [], [] => .ok []
  | [], _ :: _ => stuck

/-- A name as an operand that is not a local variable: a package-level constant or variable, or a predeclared constant. -/
def globalOrPredeclared (c : Ctx) (x : Nat) : R Val :=
  match find c.pkg x c.prog with
  | some _ => c.global c.pkg x
  | none =>
    if x = name! "nil" then .ok .nil
    else if x = name! "true" then .ok (.bool true)
    else if x = name! "false" then .ok (.bool false)
    else stuck

/-- `x(args)`, where `x` is not a local variable. -/
def callName (c : Ctx) (x : Nat) (args : List Val) : R (List Val) :=
  match find c.pkg x c.prog with
  | some (.func _, _) => c.callFunc c.pkg x args
  | some (.type _, _) => do
    match resolve c (.name x) with
    | some kt => do
      let v ← single args
      let v ← convert c.W kt v
      .ok [v]
    | none => stuck
  | some _ => stuck
  | none =>
    match predeclared x with
    | some kt => do
      let v ← single args
      let v ← convert c.W kt v
      .ok [v]
    | none =>
      if x = name! "len" then do
        let v ← single args
        let v ← lenOf v
        .ok [v]
      else if x = name! "panic" then
        match args with
        | [.str s] => .error (.panic (.explicit (String.ofList (s.map fun b => Char.ofNat b.toNat))))
        | _ => stuck
      else stuck

/-- `p.x(args)`, where `p` is an imported package. -/
def callQualified (c : Ctx) (p x : Nat) (args : List Val) : R (List Val) :=
  match find p x c.prog with
  | some (.func _, _) => c.callFunc p x args
  | some (.type _, _) =>
    match resolve c (.qual p x) with
    | some kt => do
      let v ← single args
      let v ← convert c.W kt v
      .ok [v]
    | none => stuck
  | some _ => stuck
  | none =>
    if p = name! "fmt" ∧ x = name! "Sprintf" then
      match args with
      | .str f :: vs => do
        let s ← sprintf c.callMethod f vs
        .ok [.str s]
      | _ => stuck
    else stuck

/-- The elements of an array. -/
def elements (W : Nat) (t : TyId) : List Val → R (List UInt8)
  | [] => .ok []
  | v :: vs => do
    match ← assignTo W (.u8, t) v with
    | .u8 _ x => do
      let xs ← elements W t vs
      .ok (x :: xs)
    | _ => stuck

mutual
/-- The values of an expression: one, except for a call. -/
def evalMulti (c : Ctx) (env : Env) : Expr → R (List Val)
  | .ident x =>
    match env.get x with
    | some v => .ok [v]
    | none => do
      let v ← globalOrPredeclared c x
      .ok [v]
  | .num n => .ok [.const n]
  | .str n => .ok [.str (textLine n)]
  | .sel e x =>
    match e with
    | .ident p =>
      if env.get p = none ∧ c.imported p then do
        let v ← c.global p x
        .ok [v]
      else stuck
    | _ => stuck
  | .call f args => do
    match f with
    | .ident x => do
      let vs ← evalArgs c env args
      if env.get x = none then callName c x vs else stuck
    | .sel e x => do
      if (match e with
          | .ident p => decide (env.get p = none) && c.imported p
          | _ => false) then do
        let vs ← evalArgs c env args
        match e with
        | .ident p => callQualified c p x vs
        | _ => stuck
      else do
        let v ← evalMulti c env e
        let v ← single v
        let vs ← evalArgs c env args
        c.callMethod v x vs
    | _ => stuck
  | .index e i => do
    let v ← evalMulti c env e
    let v ← single v
    let i ← evalMulti c env i
    let i ← single i
    let i ← indexValue i
    let r ← indexOf v i
    .ok [r]
  | .sliceFrom e i => do
    let v ← evalMulti c env e
    let v ← single v
    let i ← evalMulti c env i
    let i ← single i
    let i ← indexValue i
    let r ← sliceFromOf v i
    .ok [r]
  | .sliceTo e i => do
    let v ← evalMulti c env e
    let v ← single v
    let i ← evalMulti c env i
    let i ← single i
    let i ← indexValue i
    let r ← sliceToOf v i
    .ok [r]
  | .bin op a b => do
    let r ← operator c.W op
      (do
        let v ← evalMulti c env a
        single v)
      (do
        let w ← evalMulti c env b
        single w)
    .ok [r]
  | .comp t es => do
    let vs ← evalArgs c env es
    match resolve c t with
    | some (.arr, t) => do
      let l ← elements c.W t vs
      .ok [.arr t l]
    | _ => stuck

/-- The values of a list of expressions, one of each. -/
def evalArgs (c : Ctx) (env : Env) : Exprs → R (List Val)
  | .nil => .ok []
  | .cons e es => do
    let v ← evalMulti c env e
    let v ← single v
    let vs ← evalArgs c env es
    .ok (v :: vs)
end

/-- The value of an expression. -/
def eval (c : Ctx) (env : Env) (e : Expr) : R Val := do
  let vs ← evalMulti c env e
  single vs

/-- The values on the right-hand side of a definition or after `return`: those of a call, or one of each expression. -/
def evalRight (c : Ctx) (env : Env) : Exprs → R (List Val)
  | .cons e .nil => evalMulti c env e
  | es => evalArgs c env es

/-- How a statement ends: normally, with the local variables, or by `return`. -/
inductive Out where
  | next (env : Env)
  | ret (vs : List Val)
deriving Repr

/-- Leaves a block: the variables that were declared in it are forgotten. -/
def leave (n : Nat) : Out → Out
  | .next env => .next (env.drop (env.length - n))
  | .ret vs => .ret vs

/-- `x, y := …`: new variables. (Redeclaration of a variable of the same block is not covered, and does not occur.) -/
def defineAll (W : Nat) (env : Env) : List Nat → List Val → R Env
  | [], [] => .ok env
  | x :: xs, v :: vs => do
    let v ← defineAs W v
    defineAll W ((x, v) :: env) xs vs
  | _, _ => stuck

/-- `x = v` -/
def assignVar (W : Nat) (env : Env) (x : Nat) (v : Val) : R Env :=
  match env.get x with
  | none => stuck
  | some old =>
    match typeOf old with
    | none => stuck
    | some kt => do
      let v ← assignTo W kt v
      .ok (env.set x v)

/-- A loop: `body` is repeated while `cond` holds, with `post` in between. -/
def loopN (cond : Env → R Bool) (body post : Env → R Out) : (bound : Nat) → Env → R Out
  | 0, _ => .error .bound
  | bound + 1, env => do
    if ← cond env then
      match ← body env with
      | .ret vs => .ok (.ret vs)
      | .next env =>
        match ← post env with
        | .ret vs => .ok (.ret vs)
        | .next env => loopN cond body post bound env
    else .ok (.next env)

mutual
/-- A statement; `L` bounds the number of iterations of a loop. -/
def exec (c : Ctx) (L : Nat) : Stmt → Env → R Out
  | .define xs es, env => do
    let vs ← evalRight c env es
    let env ← defineAll c.W env xs vs
    .ok (.next env)
  | .assign x e, env => do
    let v ← eval c env e
    let env ← assignVar c.W env x v
    .ok (.next env)
  | .opAssign op x e, env => do
    match env.get x with
    | none => stuck
    | some old => do
      let v ← eval c env e
      let v ← binary c.W op old v
      let env ← assignVar c.W env x v
      .ok (.next env)
  | .expr e, env => do
    let _ ← evalMulti c env e
    .ok (.next env)
  | .ret es, env => do
    let vs ← evalRight c env es
    .ok (.ret vs)
  | .ifThen cond thn els, env => do
    let v ← eval c env cond
    if ← boolValue v then do
      let o ← execs c L thn env
      .ok (leave env.length o)
    else do
      let o ← execs c L els env
      .ok (leave env.length o)
  | .forever body, env => do
    let o ← loopN (fun _ => .ok true)
      (fun env => do
        let o ← execs c L body env
        .ok (leave env.length o))
      (fun env => .ok (.next env)) L env
    .ok (leave env.length o)
  | .loop init cond post body, env => do
    match ← exec c L init env with
    | .ret vs => .ok (.ret vs)
    | .next env' => do
      let o ← loopN
        (fun env => do
          let v ← eval c env cond
          boolValue v)
        (fun env => do
          let o ← execs c L body env
          .ok (leave env.length o))
        (fun env => exec c L post env) L env'
      .ok (leave env.length o)
  | .switch tag clauses, env => do
    let v ← eval c env tag
    match ← execCases c L v clauses env with
    | some o => .ok (leave env.length o)
    | none => do
      let o ← execDefault c L clauses env
      .ok (leave env.length o)
  | .switchTrue clauses, env => do
    match ← execCases c L (.bool true) clauses env with
    | some o => .ok (leave env.length o)
    | none => do
      let o ← execDefault c L clauses env
      .ok (leave env.length o)

/-- Statements one after the other. -/
def execs (c : Ctx) (L : Nat) : Stmts → Env → R Out
  | .nil, env => .ok (.next env)
  | .cons s ss, env => do
    match ← exec c L s env with
    | .ret vs => .ok (.ret vs)
    | .next env => execs c L ss env

/-- The first clause of a `switch` with an expression that equals the tag. -/
def execCases (c : Ctx) (L : Nat) (tag : Val) : Clauses → Env → R (Option Out)
  | .nil, _ => .ok none
  | .dflt _ rest, env => execCases c L tag rest env
  | .case es body rest, env => do
    if ← matches_ c env tag es then do
      let o ← execs c L body env
      .ok (some o)
    else execCases c L tag rest env

/-- The default clause of a `switch`. -/
def execDefault (c : Ctx) (L : Nat) : Clauses → Env → R Out
  | .nil, env => .ok (.next env)
  | .dflt body _, env => execs c L body env
  | .case _ _ rest, env => execDefault c L rest env

/-- Whether one of the expressions of a clause equals the tag. -/
def matches_ (c : Ctx) (env : Env) (tag : Val) : Exprs → R Bool
  | .nil => .ok false
  | .cons e es => do
    let v ← eval c env e
    let v ← binary c.W .eq tag v
    if ← boolValue v then .ok true else matches_ c env tag es
end

/-- The parameters of a function, with the arguments. -/
def bindParams (c : Ctx) : List (Nat × Ty) → List Val → R Env
  | [], [] => .ok []
  | (x, t) :: ps, v :: vs =>
    match resolve c t with
    | some kt => do
      let v ← assignTo c.W kt v
      let env ← bindParams c ps vs
      .ok ((x, v) :: env)
    | none => stuck
  | _, _ => stuck

/-- The results that have names, with their zero values. -/
def bindResults (c : Ctx) : List (Nat × Ty) → R Env
  | [] => .ok []
  | (x, t) :: ps =>
    if x = 0 then bindResults c ps
    else match resolve c t with
      | some kt => do
        let v ← zeroValue kt
        let env ← bindResults c ps
        .ok ((x, v) :: env)
      | none => stuck

/-- The results of a function, converted to their types. -/
def results (c : Ctx) : List (Nat × Ty) → List Val → R (List Val)
  | [], [] => .ok []
  | (_, t) :: ps, v :: vs =>
    match resolve c t with
    | some kt => do
      let v ← assignTo c.W kt v
      let rest ← results c ps vs
      .ok (v :: rest)
    | none => stuck
  | _, _ => stuck

/-- A call: the receiver and the arguments are bound, the body is executed. -/
def callWith (c : Ctx) (L : Nat) (f : Func) (recv : Option Val) (args : List Val) : R (List Val) := do
  let env0 ← (match f.recv, recv with
    | some (x, _), some v => .ok [(x, v)]
    | none, none => .ok []
    | _, _ => stuck)
  let env1 ← bindParams c f.params args
  let env2 ← bindResults c f.results
  match ← execs c L f.body (env0 ++ env1 ++ env2) with
  | .ret vs => results c f.results vs
  | .next _ => if f.results.isEmpty then .ok [] else stuck

/-- What a reference to other code means. -/
inductive Ref where
  | global (pkg x : Nat)
  | func (pkg x : Nat) (args : List Val)
  | method (v : Val) (x : Nat) (args : List Val)

/-- The context of code in a package, where references mean `self`. -/
def mkCtx (prog : Program) (W : Nat) (self : Ref → R (List Val)) (pkg : Nat) (imports : List Nat) : Ctx :=
  { prog, W, pkg, imports,
    global := fun p x => do
      let vs ← self (.global p x)
      single vs
    callFunc := fun p x args => self (.func p x args)
    callMethod := fun v x args => self (.method v x args) }

/-- The value of a package-level constant or variable. The variables are never assigned to (`exec` assigns to local variables
only), so they keep their initial values. -/
def globalValue (c : Ctx) : Global → R Val
  | .const t e iota => do
    let v ← eval c [(name! "iota", .const iota)] e
    match t with
    | none => .ok v
    | some t =>
      match resolve c t with
      | some kt => assignTo c.W kt v
      | none => stuck
  | .varZero t =>
    match resolve c t with
    | some kt => zeroValue kt
    | none => stuck
  | .var e => do
    let v ← eval c [] e
    defineAs c.W v
  | _ => stuck

/-- The result of a reference, given the results of references in the code that it refers to. -/
def runStep (prog : Program) (W L : Nat) (self : Ref → R (List Val)) : Ref → R (List Val)
  | .global p x =>
    match find p x prog with
    | some (g, imports) => do
      let v ← globalValue (mkCtx prog W self p imports) g
      .ok [v]
    | none => stuck
  | .func p x args =>
    match find p x prog with
    | some (.func f, imports) => callWith (mkCtx prog W self p imports) L f none args
    | _ => stuck
  | .method v x args =>
    match typeOf v with
    | some (_, t) =>
      match findMethod t x prog with
      | some (f, imports) => callWith (mkCtx prog W self t.pkg imports) L f (some v) args
      | none => stuck
    | none => stuck

/-- The result of a reference; `depth` bounds the depth of references, `L` the number of iterations of loops. -/
def run (prog : Program) (W L : Nat) : (depth : Nat) → Ref → R (List Val)
  | 0 => fun _ => .error .bound
  | depth + 1 => runStep prog W L (run prog W L depth)

end Textseg.GoLang
