import Verif.GoLang.Eval
import Verif.GoMem.Syntax
import Verif.Model.GoBytes
import Verif.Model.BufioScanner
/-!
# The meaning of a larger part of Go: programs with a memory

An interpreter for the abstract syntax of `GoMem/Syntax.lean`, after go.dev/ref/spec. A program that is not well-typed, or uses
what is not covered, is *stuck*; a panic is a different outcome.

* The memory (`Heap`) is a list of objects: arrays, structs and maps. An object is never freed or moved; its address is its
  position.
* A slice is an address, an offset, a length and a capacity; several slices may refer to the same array, and an assignment to an
  element is seen through all of them. `append` writes into the array if the capacity suffices, and otherwise copies to a new array
  whose capacity is at least what is needed and otherwise arbitrary (the parameter `grow`).
* A variable of a struct type lives in the memory, so that its address may be taken. `&x` of other variables is not covered. Array
  variables live in the memory too; copying an array is not covered.
* `int` has `W` bits (a parameter) and wraps around, `uint8`, `uint16` and `rune` have 8, 16 and 32 bits and wrap around.
* Calls of functions have a bounded depth and loops with a condition a bounded number of iterations (parameters); exceeding a bound
  is an outcome of its own.
* The text that `fmt.Sprintf` returns is an arbitrary function of its arguments (a parameter), where a slice of bytes counts as what
  is in it; and so is the text in the error that `fmt.Errorf` returns, and the path that `filepath.Join` returns.
* A function literal may stand only after `return`: then nothing but the function can refer to the variables it captures. They are
  moved to the memory, and keep their values from one call to the next.
* Of the standard library, `bytes.Cut`, `bytes.Split`, `bytes.TrimSpace`, `strconv.ParseUint` and `ParseInt` with base 16 and 32 bits,
  `utf8.EncodeRune` and `slices.Collect` are there; the first three return parts of their argument, not copies.
* A `bufio.Scanner` (with the split function `bufio.ScanLines`) gives the lines that the parameter `lines` says. `Bytes` returns a
  slice of a buffer; every call of `Scan` overwrites the buffer of the line before with arbitrary bytes (the parameter `junk`), so that
  the result of a program does not depend on what is in a line that is kept for too long unless it depends on this parameter.
* A `bytes.Buffer` is a struct with a text in it. `fmt.Fprint`, `Fprintln` and `Fprintf` (with verbs `%01x` to `%09x`) add to it; in package
  main `fmt.Fprintf` also prints messages to `os.Stderr`, whose text is arbitrary (the parameter `sprintf`). `os.Create` (in package main) and
  `os.File.Write`: whether a file can be created and how many bytes are accepted are parameters, and so is what `format.Source` returns.
  Messages and created files are kept in the memory as effects, in the order in which they come about. `os.Exit` is an outcome of its
  own, with the status and the effects so far; a panic does not tell what happened before it. The process may be killed after an effect: this
  is an exit with the status 137.
-/

namespace Textseg.GoMem
open Textseg.GoLang (TyId tyInt tyU8 Halt Effect importName wrap)

/-- The types. `t` is the name of a type that is declared, or the predeclared type; a slice type without a name has the name 0. -/
inductive GTy where
  | int (t : TyId)
  | u8 (t : TyId)
  | u16 (t : TyId)
  | rune (t : TyId)
  | bool
  | str
  | error
  /-- `uint64` or `int64` -/
  | wide (t : TyId)
  /-- `io.Reader` -/
  | reader
  /-- a function type (which one is not looked at) -/
  | func
  | slice (t : TyId) (e : GTy)
  | array (e : GTy) (n : Nat)
  | ptr (e : GTy)
  /-- a map with keys of type `string` -/
  | map (v : GTy)
  | struct (t : TyId)
deriving DecidableEq, Repr

/-- The extent of a slice: the address of the array, the position of the first element, the length, the capacity. -/
structure Sl where
  a : Nat
  off : Nat
  len : Nat
  cap : Nat
deriving DecidableEq, Repr

/-- A value of type `error` other than nil. -/
inductive GoErr where
  | io (e : IOErr)
  /-- an error of `strconv` -/
  | syntax
  /-- an error that was made by `fmt.Errorf` -/
  | text (s : GoString)
  /-- an error of `os.Open` -/
  | os (n : Nat)
deriving DecidableEq, Repr

inductive Val where
  /-- an untyped integer constant -/
  | const (i : Int)
  | int (t : TyId) (i : Int)
  | u8 (t : TyId) (x : UInt8)
  | u16 (t : TyId) (x : UInt16)
  | rune (t : TyId) (x : Int32)
  | bool (b : Bool)
  | str (s : GoString)
  /-- an `uint64` or `int64` -/
  | wide (t : TyId) (i : Int)
  /-- of type `error` -/
  | err (e : Option GoErr)
  /-- an open file, or another reader -/
  | reader (id : Nat)
  /-- a function literal, at address `a` -/
  | func (a : Nat)
  /-- the function that `slices.Collect` passes to its argument: it appends to the list at address `a` -/
  | collect (a : Nat)
  /-- `nil` without a type -/
  | nil
  | slice (t : TyId) (e : GTy) (s : Option Sl)
  /-- an array variable: its address and length -/
  | array (e : GTy) (a n : Nat)
  /-- a pointer to a struct of type `t` -/
  | ptr (t : TyId) (a : Nat)
  /-- a pointer to the element at position `i` of an array -/
  | ptrElem (e : GTy) (a i : Nat)
  | map (v : GTy) (a : Nat)
  | struct (t : TyId) (fs : List (Nat × Val))
  /-- as the content of a local variable: the variable is the struct at address `a` -/
  | cell (t : TyId) (a : Nat)
  /-- as the content of a local variable: the variable has been moved to the address `a` -/
  | boxed (a : Nat)
deriving Repr

/-- What an address refers to. -/
inductive Obj where
  | arr (l : List Val)
  | struct (t : TyId) (fs : List (Nat × Val))
  | map (m : List (GoString × Val))
  /-- a variable -/
  | box (v : Val)
  /-- a `bufio.Scanner` over the reader `id`, after `pos` calls of `Scan`; its current line -/
  | scan (id pos : Nat) (line : Option Sl)
  /-- a function literal: the package and the imports of the file, the parameters, the body, and the captured variables -/
  | closure (pkg : Nat) (imports : List Nat) (params : List (Nat × Ty)) (body : Stmts) (env : List (Nat × Val))
  /-- something that is seen from outside; the content of a file may still grow -/
  | effect (e : Effect)
deriving Repr

abbrev Heap := List Obj

/-- A computation that uses the memory. -/
def M (α : Type) := Heap → Except Halt (α × Heap)

def M.pure {α : Type} (a : α) : M α := fun h => .ok (a, h)

def M.bind {α β : Type} (x : M α) (f : α → M β) : M β := fun h =>
  match x h with
  | .ok (a, h') => f a h'
  | .error e => .error e

instance : Monad M where
  pure := M.pure
  bind := M.bind

def halt {α : Type} (e : Halt) : M α := fun _ => .error e
def stuck {α : Type} : M α := halt .stuck
def panic_ {α : Type} (p : GoPanic) : M α := halt (.panic p)

def alloc (o : Obj) : M Nat := fun h => .ok (h.length, h ++ [o])

def load (a : Nat) : M Obj := fun h =>
  match h[a]? with
  | some o => .ok (o, h)
  | none => .error .stuck

def store (a : Nat) (o : Obj) : M Unit := fun h => .ok ((), h.set a o)

/-- Local variables, the innermost first. -/
abbrev Env := List (Nat × Val)

def Env.get (x : Nat) : Env → Option Val
  | [] => none
  | (y, v) :: env => if x = y then some v else get x env

def Env.set (x : Nat) (v : Val) : Env → Env
  | [] => []
  | (y, w) :: env => if x = y then (y, v) :: env else (y, w) :: set x v env

/-- What a package-level name stands for. -/
inductive Global where
  | func (f : Func)
  | const (t : Option Ty) (e : Expr) (iota : Nat)
  | varZero (t : Ty)
  | var (e : Expr)
  | type (t : Ty)
  | struct (fs : List (Nat × Ty))

/-- What a name declared in a list of declarations stands for (methods are not meant). -/
def findDecl (x : Nat) : List Decl → Option Global
  | [] => none
  | .func f :: ds => if f.recv.isNone ∧ f.name = x then some (.func f) else findDecl x ds
  | .const y t e i :: ds => if y = x then some (.const t e i) else findDecl x ds
  | .varZero y t :: ds => if y = x then some (.varZero t) else findDecl x ds
  | .var y e :: ds => if y = x then some (.var e) else findDecl x ds
  | .type y t :: ds => if y = x then some (.type t) else findDecl x ds
  | .struct y fs :: ds => if y = x then some (.struct fs) else findDecl x ds

/-- The name of the type of a receiver. -/
def recvName : Ty → Nat
  | .name x => x
  | .ptr (.name x) => x
  | _ => 0

/-- The method `x` of the type `t` declared in a list of declarations. -/
def findMethodDecl (t x : Nat) : List Decl → Option Func
  | [] => none
  | .func f :: ds =>
    match f.recv with
    | some (_, r) => if recvName r = t ∧ f.name = x then some f else findMethodDecl t x ds
    | none => findMethodDecl t x ds
  | _ :: ds => findMethodDecl t x ds

/-- A program: its files. -/
abbrev Program := List File

/-- A package-level name: what it stands for, and the imports of the file where it is declared. -/
def find (pkg x : Nat) : Program → Option (Global × List Nat)
  | [] => none
  | f :: fs =>
    if f.pkg = pkg then
      match findDecl x f.decls with
      | some g => some (g, f.imports)
      | none => find pkg x fs
    else find pkg x fs

def findMethod (t : TyId) (x : Nat) : Program → Option (Func × List Nat)
  | [] => none
  | f :: fs =>
    if f.pkg = t.pkg then
      match findMethodDecl t.name x f.decls with
      | some g => some (g, f.imports)
      | none => findMethod t x fs
    else findMethod t x fs

/-- What is not fixed by the language: the number of bits of `int`, the capacity of a new array (from the old capacity and the
capacity that is needed), the text of formatted output; and what the operating system and the readers do: the file (its number) or
error that `os.Open` returns for a path, what the calls of `Scan` on a reader return (a line, or that there are no more), and what `Err`
returns after a number of calls of `Scan`; how long `Bytes` is valid; whether `os.Create` succeeds, how many bytes `Write` writes to a file;
what `format.Source` returns; and whether the process is killed after an effect. -/
structure Machine where
  W : Nat
  grow : Nat → Nat → Nat
  sprintf : List Val → GoString
  join : List Val → GoString
  open_ : GoString → Except Nat Nat
  lines : (id pos : Nat) → Except GoPanic (Option (List UInt8))
  scanErr : (id pos : Nat) → Option IOErr
  junk : (id pos i : Nat) → UInt8
  create : GoString → Except Nat Unit
  write : List UInt8 → Nat
  format : GoString → Except GoString GoString
  killed : Effect → Bool

/-- Where an expression is evaluated: the program, the machine, the package, the imports of the file, and references to other code:
a package-level constant or variable, and a call of a function or method. -/
structure Ctx where
  prog : Program
  m : Machine
  pkg : Nat
  imports : List Nat
  global : (pkg x : Nat) → M Val
  callFunc : (pkg x : Nat) → List Val → M (List Val)
  callMethod : Val → (x : Nat) → List Val → M (List Val)
  callValue : Val → List Val → M (List Val)

def Ctx.imported (c : Ctx) (x : Nat) : Bool := (c.imports.map importName).contains x

def tyU16 : TyId := ⟨0, name! "uint16"⟩
def tyRune : TyId := ⟨0, name! "int32"⟩
def noName : TyId := ⟨0, 0⟩
def tyU64 : TyId := ⟨0, name! "uint64"⟩
def tyI64 : TyId := ⟨0, name! "int64"⟩
/-- The type `bufio.Scanner`. -/
def tyScanner : TyId := ⟨name! "bufio", name! "Scanner"⟩
/-- The type `bytes.Buffer`: a struct with one field, which has the name 0. -/
def tyBuffer : TyId := ⟨name! "bytes", name! "Buffer"⟩
/-- The type `os.File`; a pointer to it refers to an `Obj.effect`. -/
def tyFile : TyId := ⟨name! "os", name! "File"⟩
/-- `os.Stderr` has a type of its own. -/
def tyStderr : TyId := ⟨name! "os", name! "Stderr"⟩

/-- The predeclared types. -/
def predeclared (x : Nat) : Option GTy :=
  if x = name! "int" then some (.int tyInt)
  else if x = name! "uint8" ∨ x = name! "byte" then some (.u8 tyU8)
  else if x = name! "uint16" then some (.u16 tyU16)
  else if x = name! "rune" ∨ x = name! "int32" then some (.rune tyRune)
  else if x = name! "bool" then some .bool
  else if x = name! "string" then some .str
  else if x = name! "error" then some .error
  else none

/-- The length of an array type. -/
def evalLen (c : Ctx) : Len → M Nat
  | .num n => pure n
  | .name x => do
    match ← c.global c.pkg x with
    | .const (.ofNat n) => pure n
    | _ => stuck
  | .mul a b => do
    let m ← evalLen c a
    let n ← evalLen c b
    pure (m * n)

/-- The type `t` that is declared as a predeclared type, or as a slice of one. -/
def namedType (t : TyId) : Ty → Option GTy
  | .name y =>
    match predeclared y with
    | some (.int _) => some (.int t)
    | some (.u8 _) => some (.u8 t)
    | some (.u16 _) => some (.u16 t)
    | some (.rune _) => some (.rune t)
    | _ => none
  | .slice (.name y) => (predeclared y).map (.slice t ·)
  | _ => none

/-- The type that a type expression denotes. -/
def resolve (c : Ctx) : Ty → M GTy
  | .name x =>
    match find c.pkg x c.prog with
    | some (.struct _, _) => pure (.struct ⟨c.pkg, x⟩)
    | some (.type t, _) =>
      match namedType ⟨c.pkg, x⟩ t with
      | some t => pure t
      | none => stuck
    | some _ => stuck
    | none =>
      match predeclared x with
      | some t => pure t
      | none => stuck
  | .slice t => do
    let e ← resolve c t
    pure (.slice noName e)
  | .array n t => do
    let n ← evalLen c n
    let e ← resolve c t
    pure (.array e n)
  | .ptr t => do
    let e ← resolve c t
    pure (.ptr e)
  | .map k v => do
    match ← resolve c k with
    | .str => do
      let v ← resolve c v
      pure (.map v)
    | _ => stuck
  | .qual p x =>
    if c.imported p then
      match find p x c.prog with
      | some (.struct _, _) => pure (.struct ⟨p, x⟩)
      | some (.type t, _) =>
        match namedType ⟨p, x⟩ t with
        | some t => pure t
        | none => stuck
      | some _ => stuck
      | none =>
        if p = name! "io" ∧ x = name! "Reader" then pure .reader
        else if p = name! "bufio" ∧ x = name! "Scanner" then pure (.struct tyScanner)
        else if p = name! "bytes" ∧ x = name! "Buffer" then pure (.struct tyBuffer)
        else stuck
    else stuck
  | .fn => pure .func
  | .inst p x _ => if c.imported p ∧ p = name! "iter" ∧ x = name! "Seq" then pure .func else stuck

/-- The type of a value that has one. -/
def typeOf : Val → Option GTy
  | .int t _ => some (.int t)
  | .u8 t _ => some (.u8 t)
  | .u16 t _ => some (.u16 t)
  | .rune t _ => some (.rune t)
  | .bool _ => some .bool
  | .str _ => some .str
  | .wide t _ => some (.wide t)
  | .err _ => some .error
  | .reader _ => some .reader
  | .func _ => some .func
  | .collect _ => some .func
  | .slice t e _ => some (.slice t e)
  | .array e _ n => some (.array e n)
  | .ptr t _ => some (.ptr (.struct t))
  | .ptrElem e _ _ => some (.ptr e)
  | .map v _ => some (.map v)
  | .struct t _ => some (.struct t)
  | _ => none

/-- The result of an assignment of `v` to a variable of the given type. -/
def assignTo (W : Nat) : GTy → Val → M Val
  | .int t, .const i => if wrap W i = i then pure (.int t i) else stuck
  | .u8 t, .const i => if 0 ≤ i ∧ i < 256 then pure (.u8 t (UInt8.ofNat i.toNat)) else stuck
  | .u16 t, .const i => if 0 ≤ i ∧ i < 65536 then pure (.u16 t (UInt16.ofNat i.toNat)) else stuck
  | .rune t, .const i => if -2147483648 ≤ i ∧ i < 2147483648 then pure (.rune t (Int32.ofInt i)) else stuck
  | .slice t e, .nil => pure (.slice t e none)
  | .error, .nil => pure (.err none)
  | .array _ _, _ => stuck
  | t, v => if typeOf v = some t then pure v else stuck

/-- The bytes of a list of values of type `uint8`. -/
def bytesOf : List Val → Option (List UInt8)
  | [] => some []
  | .u8 _ x :: vs => (bytesOf vs).map (x :: ·)
  | _ => none

/-- The elements of a slice. -/
def readSlice : Option Sl → M (List Val)
  | none => pure []
  | some s => do
    match ← load s.a with
    | .arr l => pure ((l.drop s.off).take s.len)
    | _ => stuck

/-- A conversion `T(v)`. -/
def convert (W : Nat) : GTy → Val → M Val
  | .int t, .int _ i => pure (.int t i)
  | .int t, .u8 _ x => pure (.int t x.toNat)
  | .int t, .u16 _ x => pure (.int t x.toNat)
  | .u8 t, .int _ i => pure (.u8 t (UInt8.ofNat (i.emod 256).toNat))
  | .u8 t, .u8 _ x => pure (.u8 t x)
  | .u8 t, .u16 _ x => pure (.u8 t (UInt8.ofNat x.toNat))
  | .u16 t, .int _ i => pure (.u16 t (UInt16.ofNat (i.emod 65536).toNat))
  | .u16 t, .u8 _ x => pure (.u16 t (UInt16.ofNat x.toNat))
  | .u16 t, .u16 _ x => pure (.u16 t x)
  | .rune t, .wide _ i => pure (.rune t (Int32.ofInt i))
  | .slice t e, .slice _ e' s => if e = e' then pure (.slice t e s) else stuck
  | .slice t (.u8 u), .str bs => do
    let a ← alloc (.arr (bs.map (.u8 u)))
    pure (.slice t (.u8 u) (some ⟨a, 0, bs.length, bs.length⟩))
  | .str, .slice _ (.u8 _) s => do
    let vs ← readSlice s
    match bytesOf vs with
    | some bs => pure (.str bs)
    | none => stuck
  | t, v => assignTo W t v

/-- The zero value of a type; not of an array or struct type. -/
def zeroValue : GTy → M Val
  | .int t => pure (.int t 0)
  | .u8 t => pure (.u8 t 0)
  | .u16 t => pure (.u16 t 0)
  | .rune t => pure (.rune t 0)
  | .bool => pure (.bool false)
  | .str => pure (.str [])
  | .slice t e => pure (.slice t e none)
  | _ => stuck

/-- The value of the variable that `x := v` declares: a constant becomes an `int`. -/
def defineAs (W : Nat) : Val → M Val
  | .const i => assignTo W (.int tyInt) (.const i)
  | .nil => stuck
  | .array _ _ _ => stuck
  | v => pure v

/-- Operators on two `int`s. -/
def intOp (W : Nat) (t : TyId) (op : BinOp) (a b : Int) : M Val :=
  match op with
  | .eq => pure (.bool (a == b))
  | .ne => pure (.bool (a != b))
  | .lt => pure (.bool (decide (a < b)))
  | .le => pure (.bool (decide (a ≤ b)))
  | .gt => pure (.bool (decide (a > b)))
  | .ge => pure (.bool (decide (a ≥ b)))
  | .add => pure (.int t (wrap W (a + b)))
  | .sub => pure (.int t (wrap W (a - b)))
  | .mul => pure (.int t (wrap W (a * b)))
  | .rem => if b = 0 then stuck else pure (.int t (a.tmod b))
  | _ => stuck

/-- Operators on two `uint8`s. -/
def u8Op (t : TyId) (op : BinOp) (a b : UInt8) : M Val :=
  match op with
  | .eq => pure (.bool (a == b))
  | .ne => pure (.bool (a != b))
  | .lt => pure (.bool (decide (a < b)))
  | .le => pure (.bool (decide (a ≤ b)))
  | .gt => pure (.bool (decide (b < a)))
  | .ge => pure (.bool (decide (b ≤ a)))
  | .add => pure (.u8 t (a + b))
  | .sub => pure (.u8 t (a - b))
  | .mul => pure (.u8 t (a * b))
  | .or => pure (.u8 t (a ||| b))
  | .and => pure (.u8 t (a &&& b))
  | _ => stuck

/-- Operators on two `uint16`s. -/
def u16Op (t : TyId) (op : BinOp) (a b : UInt16) : M Val :=
  match op with
  | .eq => pure (.bool (a == b))
  | .ne => pure (.bool (a != b))
  | .lt => pure (.bool (decide (a < b)))
  | .le => pure (.bool (decide (a ≤ b)))
  | .gt => pure (.bool (decide (b < a)))
  | .ge => pure (.bool (decide (b ≤ a)))
  | .add => pure (.u16 t (a + b))
  | .sub => pure (.u16 t (a - b))
  | .mul => pure (.u16 t (a * b))
  | .or => pure (.u16 t (a ||| b))
  | .and => pure (.u16 t (a &&& b))
  | _ => stuck

/-- Operators on two `rune`s. -/
def runeOp (t : TyId) (op : BinOp) (a b : Int32) : M Val :=
  match op with
  | .eq => pure (.bool (a == b))
  | .ne => pure (.bool (a != b))
  | .lt => pure (.bool (decide (a < b)))
  | .le => pure (.bool (decide (a ≤ b)))
  | .gt => pure (.bool (decide (b < a)))
  | .ge => pure (.bool (decide (b ≤ a)))
  | .add => pure (.rune t (a + b))
  | .sub => pure (.rune t (a - b))
  | _ => stuck

/-- Operators on two untyped constants. -/
def constOp (op : BinOp) (a b : Int) : M Val :=
  match op with
  | .eq => pure (.bool (a == b))
  | .ne => pure (.bool (a != b))
  | .lt => pure (.bool (decide (a < b)))
  | .le => pure (.bool (decide (a ≤ b)))
  | .gt => pure (.bool (decide (a > b)))
  | .ge => pure (.bool (decide (a ≥ b)))
  | .add => pure (.const (a + b))
  | .sub => pure (.const (a - b))
  | .mul => pure (.const (a * b))
  | _ => stuck

/-- Operators on two values of the same type. -/
def sameOp (W : Nat) (op : BinOp) : Val → Val → M Val
  | .const a, .const b => constOp op a b
  | .int t a, .int u b => if t = u then intOp W t op a b else stuck
  | .u8 t a, .u8 u b => if t = u then u8Op t op a b else stuck
  | .u16 t a, .u16 u b => if t = u then u16Op t op a b else stuck
  | .rune t a, .rune u b => if t = u then runeOp t op a b else stuck
  | .str a, .str b =>
    match op with
    | .eq => pure (.bool (decide (a = b)))
    | .ne => pure (.bool (decide (a ≠ b)))
    | .add => pure (.str (a ++ b))
    | _ => stuck
  | .bool a, .bool b =>
    match op with
    | .eq => pure (.bool (a == b))
    | .ne => pure (.bool (a != b))
    | _ => stuck
  | .err a, .err b =>
    -- (errors are compared with nil and `io.EOF` only)
    if (a = none ∨ a = some (.io .eof)) ∨ (b = none ∨ b = some (.io .eof)) then
      match op with
      | .eq => pure (.bool (decide (a = b)))
      | .ne => pure (.bool (decide (a ≠ b)))
      | _ => stuck
    else stuck
  | _, _ => stuck

/-- `v << n` -/
def shiftLeft (W : Nat) (n : Nat) : Val → M Val
  | .const a => pure (.const (a * 2 ^ n))
  | .int t a => pure (.int t (wrap W (a * 2 ^ n)))
  | .u8 t a => pure (.u8 t (UInt8.ofNat (a.toNat <<< n)))
  | .u16 t a => pure (.u16 t (UInt16.ofNat (a.toNat <<< n)))
  | _ => stuck

/-- `v >> n` -/
def shiftRight (n : Nat) : Val → M Val
  | .const a => pure (.const (a / 2 ^ n))
  | .int t a => pure (.int t (a / 2 ^ n))
  | .u8 t a => pure (.u8 t (UInt8.ofNat (a.toNat >>> n)))
  | .u16 t a => pure (.u16 t (UInt16.ofNat (a.toNat >>> n)))
  | _ => stuck

/-- Binary operators (except `&&`, `||`): a constant takes the type of the other operand. The count of a shift is a constant. -/
def binary (W : Nat) (op : BinOp) (a b : Val) : M Val :=
  match op, b with
  | .shl, .const n => if 0 ≤ n then shiftLeft W n.toNat a else stuck
  | .shr, .const n => if 0 ≤ n then shiftRight n.toNat a else stuck
  | _, _ =>
    match typeOf a, typeOf b with
    | some t, none => do
      let b ← assignTo W t b
      sameOp W op a b
    | none, some t => do
      let a ← assignTo W t a
      sameOp W op a b
    | _, _ => sameOp W op a b

def boolValue : Val → M Bool
  | .bool b => pure b
  | _ => stuck

/-- All binary operators; the right operand of `&&` and `||` is evaluated only if it matters. -/
def operator (W : Nat) (op : BinOp) (x y : M Val) : M Val := do
  let v ← x
  match op, v with
  | .land, .bool false => pure (.bool false)
  | .lor, .bool true => pure (.bool true)
  | _, _ => do
    let w ← y
    match op with
    | .land | .lor => do
      let b ← boolValue w
      pure (.bool b)
    | _ => binary W op v w

/-- The value of an index or a length. -/
def indexValue : Val → M Int
  | .const i => pure i
  | .int _ i => pure i
  | .u8 _ x => pure x.toNat
  | .u16 _ x => pure x.toNat
  | _ => stuck

def len (v : Val) : M Val :=
  match v with
  | .slice _ _ s => pure (.int tyInt ((s.map (·.len)).getD 0))
  | .array _ _ n => pure (.int tyInt n)
  | .str s => pure (.int tyInt s.length)
  | _ => stuck

/-- The element type and the extent of a slice or array. -/
def extent : Val → Option (GTy × Option Sl)
  | .slice _ e s => some (e, s)
  | .array e a n => some (e, some ⟨a, 0, n, n⟩)
  | _ => none

/-- The position of an element of a slice: the address of the array and the position in it. -/
def position (s : Option Sl) (i : Int) : M (Nat × Nat) :=
  match s with
  | some s => if 0 ≤ i ∧ i < s.len then pure (s.a, s.off + i.toNat) else panic_ .indexOutOfRange
  | none => panic_ .indexOutOfRange

def loadElem (a i : Nat) : M Val := do
  match ← load a with
  | .arr l =>
    match l[i]? with
    | some v => pure v
    | none => stuck
  | _ => stuck

def storeElem (a i : Nat) (v : Val) : M Unit := do
  match ← load a with
  | .arr l => if i < l.length then store a (.arr (l.set i v)) else stuck
  | _ => stuck

/-- The value for a key of a map, and whether it is there. -/
def mapGet (m : List (GoString × Val)) (k : GoString) : Option Val := m.lookup k

def loadMap (v : GTy) (a : Nat) (k : GoString) : M (Val × Bool) := do
  match ← load a with
  | .map m =>
    match mapGet m k with
    | some x => pure (x, true)
    | none => do
      let z ← zeroValue v
      pure (z, false)
  | _ => stuck

def storeMap (a : Nat) (k : GoString) (x : Val) : M Unit := do
  match ← load a with
  | .map m => store a (.map ((k, x) :: m))
  | _ => stuck

def loadStruct (a : Nat) : M Val := do
  match ← load a with
  | .struct t fs => pure (.struct t fs)
  | _ => stuck

/-- The value of a variable that was moved to the memory. -/
def loadBox (a : Nat) : M Val := do
  match ← load a with
  | .box v => pure v
  | _ => stuck

/-- `v[i]` -/
def indexOf (v i : Val) : M Val :=
  match v, i with
  | .map e a, .str k => do
    let (x, _) ← loadMap e a k
    pure x
  | v, i =>
    match extent v with
    | some (_, s) => do
      let i ← indexValue i
      let (a, j) ← position s i
      loadElem a j
    | none => stuck

/-- `v[lo:hi]` -/
def sliceOf (v : Val) (lo : Int) (hi : Option Int) : M Val :=
  match v, extent v with
  | v, some (e, s) =>
    let t := match v with
      | .slice t _ _ => t
      | _ => noName
    let sl := s.getD ⟨0, 0, 0, 0⟩
    let hi := hi.getD sl.len
    if 0 ≤ lo ∧ lo ≤ hi ∧ hi ≤ sl.cap then
      pure (.slice t e (s.map fun s => ⟨s.a, s.off + lo.toNat, (hi - lo).toNat, s.cap - lo.toNat⟩))
    else panic_ .sliceOutOfRange
  | _, none => stuck

/-- The only value of a call that is used as an operand. -/
def single : List Val → M Val
  | [v] => pure v
  | _ => stuck

/-- `append(s, xs...)` -/
def appendSlice (m : Machine) (e : GTy) (s : Option Sl) (xs : List Val) : M (Option Sl) :=
  if xs.isEmpty then pure s
  else
    let sl := s.getD ⟨0, 0, 0, 0⟩
    let n := sl.len + xs.length
    if n ≤ sl.cap then do
      match ← load sl.a with
      | .arr l => do
        store sl.a (.arr (l.take (sl.off + sl.len) ++ xs ++ l.drop (sl.off + n)))
        pure (some ⟨sl.a, sl.off, n, sl.cap⟩)
      | _ => stuck
    else do
      let old ← readSlice s
      let z ← zeroValue e
      let cap := max n (m.grow sl.cap n)
      let a ← alloc (.arr (old ++ xs ++ List.replicate (cap - n) z))
      pure (some ⟨a, 0, n, cap⟩)

/-- `make(T, args)` -/
def makeOf (t : GTy) (args : List Val) : M Val :=
  match t, args with
  | .slice t e, [n] => do
    let n ← indexValue n
    let z ← zeroValue e
    if 0 ≤ n then do
      let a ← alloc (.arr (List.replicate n.toNat z))
      pure (.slice t e (some ⟨a, 0, n.toNat, n.toNat⟩))
    else panic_ (.explicit "makeslice: len out of range")
  | .slice t e, [n, k] => do
    let n ← indexValue n
    let k ← indexValue k
    let z ← zeroValue e
    if 0 ≤ n ∧ n ≤ k then do
      let a ← alloc (.arr (List.replicate k.toNat z))
      pure (.slice t e (some ⟨a, 0, n.toNat, k.toNat⟩))
    else panic_ (.explicit "makeslice: cap out of range")
  | .map v, [] => do
    let a ← alloc (.map [])
    pure (.map v a)
  | _, _ => stuck

/-- A field of a struct. -/
def fieldGet (x : Nat) : List (Nat × Val) → M Val
  | [] => stuck
  | (y, v) :: fs => if x = y then pure v else fieldGet x fs

def fieldSet (x : Nat) (v : Val) : List (Nat × Val) → List (Nat × Val)
  | [] => []
  | (y, w) :: fs => if x = y then (y, v) :: fs else (y, w) :: fieldSet x v fs

/-- `v.x`, where `v` is a struct or a pointer to one -/
def fieldOf (v : Val) (x : Nat) : M Val :=
  match v with
  | .struct _ fs => fieldGet x fs
  | .ptr _ a => do
    match ← load a with
    | .struct _ fs => fieldGet x fs
    | _ => stuck
  | _ => stuck

/-- A struct with the given fields, in the order of the declaration; the others have their zero values. -/
def makeStruct (c : Ctx) (given : List (Nat × Val)) : List (Nat × Ty) → M (List (Nat × Val))
  | [] => pure []
  | (x, t) :: fs => do
    let t ← resolve c t
    let v ← (match Env.get x given with
      | some v => assignTo c.m.W t v
      | none => zeroValue t)
    let rest ← makeStruct c given fs
    pure ((x, v) :: rest)

/-- The elements of a slice in a composite literal. -/
def elements (W : Nat) (t : GTy) : List Val → M (List Val)
  | [] => pure []
  | v :: vs => do
    let v ← assignTo W t v
    let vs ← elements W t vs
    pure (v :: vs)

/-- A name as an operand that is not a local variable: a package-level constant or variable, or a predeclared constant. -/
def globalOrPredeclared (c : Ctx) (x : Nat) : M Val :=
  match find c.pkg x c.prog with
  | some _ => c.global c.pkg x
  | none =>
    if x = name! "nil" then pure .nil
    else if x = name! "true" then pure (.bool true)
    else if x = name! "false" then pure (.bool false)
    else stuck

/-- `x(args)`, where `x` is not a local variable. -/
def callName (c : Ctx) (x : Nat) (args : List Val) : M (List Val) :=
  match find c.pkg x c.prog with
  | some (.func _, _) => c.callFunc c.pkg x args
  | some (.type _, _) => do
    let t ← resolve c (.name x)
    let v ← single args
    let v ← convert c.m.W t v
    pure [v]
  | some _ => stuck
  | none =>
    match predeclared x with
    | some t => do
      let v ← single args
      let v ← convert c.m.W t v
      pure [v]
    | none =>
      if x = name! "len" then do
        let v ← single args
        let v ← len v
        pure [v]
      else if x = name! "panic" then
        match args with
        | [.str s] => panic_ (.explicit (String.ofList (s.map fun b => Char.ofNat b.toNat)))
        | _ => stuck
      else if x = name! "min" then
        match args with
        | [.int t a, .const b] => if wrap c.m.W b = b then pure [.int t (min a b)] else stuck
        | _ => stuck
      else stuck

/-- Writes the bytes at the beginning of a slice; a panic if it is too short. -/
def writeBytes (s : Option Sl) (bs : List UInt8) : M Unit :=
  match s with
  | none => panic_ .indexOutOfRange
  | some s =>
    if bs.length ≤ s.len then do
      match ← load s.a with
      | .arr l => store s.a (.arr (l.take s.off ++ bs.map (.u8 tyU8) ++ l.drop (s.off + bs.length)))
      | _ => stuck
    else panic_ .indexOutOfRange

/-- A part of a slice: `n` elements from position `i`. -/
def subSlice (s : Sl) (i n : Nat) : Sl := ⟨s.a, s.off + i, n, s.cap - i⟩

/-- The bytes of a slice. -/
def readBytes (s : Option Sl) : M (List UInt8) := do
  let vs ← readSlice s
  match bytesOf vs with
  | some bs => pure bs
  | none => stuck

/-- `bytes.Cut(s, sep)`: parts of `s`. -/
def cutOf (e : GTy) (s sep : Option Sl) : M (List Val) := do
  let bs ← readBytes s
  let sp ← readBytes sep
  match bytesIndex sp bs with
  | some i =>
    pure [.slice noName e (s.map fun s => subSlice s 0 i),
      .slice noName e (s.map fun s => subSlice s (i + sp.length) (s.len - (i + sp.length))), .bool true]
  | none => pure [.slice noName e s, .slice noName e none, .bool false]

/-- `bytes.TrimSpace(s)`: a part of `s`. -/
def trimOf (e : GTy) (s : Option Sl) : M (List Val) := do
  let bs ← readBytes s
  if TrimSpace bs = [] then pure [.slice noName e none]
  else pure [.slice noName e (s.map fun s => subSlice s (bs.length - (trimLeft bs.length bs).length) (TrimSpace bs).length)]

/-- The pieces of `s`, of the given lengths, with gaps of length `n` in between. -/
def pieces (e : GTy) (s : Sl) (n : Nat) : (i : Nat) → List Nat → List Val
  | _, [] => []
  | i, k :: ks => .slice noName e (some ⟨s.a, s.off + i, k, if ks.isEmpty then s.cap - i else k⟩) :: pieces e s n (i + k + n) ks

/-- `bytes.Split(s, sep)`: a new slice of parts of `s`. -/
def splitOf (e : GTy) (s sep : Option Sl) : M (List Val) := do
  let bs ← readBytes s
  let sp ← readBytes sep
  match bytesSplit bs sp, sp.isEmpty with
  | .ok ps, false => do
    let vs := pieces e (s.getD ⟨0, 0, 0, 0⟩) sp.length 0 (ps.map (·.length))
    let a ← alloc (.arr vs)
    pure [.slice noName (.slice noName e) (some ⟨a, 0, vs.length, vs.length⟩)]
  | _, _ => stuck

/-- `slices.Collect(f)`, for a function that yields strings. -/
def collectOf (c : Ctx) (f : Val) : M (List Val) := do
  let a ← alloc (.arr [])
  let _ ← c.callValue f [.collect a]
  match ← load a with
  | .arr l => pure [.slice noName .str (if l.isEmpty then none else some ⟨a, 0, l.length, l.length⟩)]
  | _ => stuck

/-- The number that `%x` prints; of types that have no methods, and not negative. -/
def hexArg : Val → Option Nat
  | .int t i => if t = tyInt ∧ 0 ≤ i then some i.toNat else none
  | .u8 t x => if t = tyU8 then some x.toNat else none
  | .u16 t x => if t = tyU16 then some x.toNat else none
  | _ => none

/-- `%0wx`: lower-case hexadecimal, at least `w` digits. -/
def hexWidth (w n : Nat) : GoString :=
  let ds := (Nat.toDigits 16 n).map fun c => UInt8.ofNat c.toNat
  List.replicate (w - ds.length) 0x30 ++ ds

/-- A text with the verbs `%01x` to `%09x`. -/
def formatOf : GoString → List Val → Option GoString
  | [], [] => some []
  | [], _ :: _ => none
  | 0x25 :: 0x30 :: w :: 0x78 :: rest, v :: vs =>
    if 0x31 ≤ w ∧ w ≤ 0x39 then
      match hexArg v, formatOf rest vs with
      | some n, some s => some (hexWidth (w.toNat - 0x30) n ++ s)
      | _, _ => none
    else none
  | b :: rest, vs =>
    if b = 0x25 then none
    else
      match formatOf rest vs with
      | some s => some (b :: s)
      | none => none

/-- What `fmt.Fprint`, `fmt.Fprintln` and `fmt.Fprintf` print: a text, a text and a line end, or a text with hexadecimal numbers. -/
def printed (x : Nat) : List Val → Option GoString
  | .str s :: vs =>
    if x = name! "Fprint" then (if vs.isEmpty then some s else none)
    else if x = name! "Fprintln" then (if vs.isEmpty then some (s ++ [0x0A]) else none)
    else if x = name! "Fprintf" then formatOf s vs
    else none
  | _ => none

/-- Adds to a `bytes.Buffer`. -/
def appendBuffer (a : Nat) (s : GoString) : M Unit := do
  match ← load a with
  | .struct t [(0, .str bs)] => if t = tyBuffer then store a (.struct t [(0, .str (bs ++ s))]) else stuck
  | _ => stuck

/-- An argument of formatted output: of a slice of bytes, what is in it (`%q` and `%s` print it as the string). -/
def formatArg : Val → M Val
  | .slice _ (.u8 _) s => do
    let bs ← readBytes s
    pure (.str bs)
  | .slice _ _ _ => stuck
  | v => pure v

/-- The arguments of formatted output. -/
def formatArgs : List Val → M (List Val)
  | [] => pure []
  | v :: vs => do
    let v ← formatArg v
    let vs ← formatArgs vs
    pure (v :: vs)

/-- The effects of a program, in the order in which they happened. -/
def effectsOf (h : Heap) : List Effect :=
  h.filterMap fun o => match o with
    | .effect e => some e
    | _ => none

/-- `os.Exit(n)` -/
def exit_ {α : Type} (n : Nat) : M α := fun h => .error (.exit n (effectsOf h))

/-- The effect `e` has happened: the process goes on, or it is killed (with the status 137). -/
def survive (m : Machine) (e : Effect) : M Unit := if m.killed e then exit_ 137 else pure ()

/-- `fmt.Fprint(w, args)`, `fmt.Fprintln(w, args)` and `fmt.Fprintf(w, args)`, where `w` is a `bytes.Buffer`, or (`Fprintf`, and in package
main) `os.Stderr`. -/
def fprint (c : Ctx) (x : Nat) : List Val → M (List Val)
  | .ptr t a :: args =>
    if t = tyBuffer then
      match printed x args with
      | some s => do
        appendBuffer a s
        pure [.int tyInt s.length, .err none]
      | none => stuck
    else if t = tyStderr ∧ x = name! "Fprintf" ∧ c.pkg = name! "main" then do
      let args ← formatArgs args
      let _ ← alloc (.effect (.message (c.m.sprintf args)))
      survive c.m (.message (c.m.sprintf args))
      pure [.int tyInt (c.m.sprintf args).length, .err none]
    else stuck
  | _ => stuck

/-- `bytes.Buffer.Bytes`. (A copy; neither it nor the buffer is changed afterwards.) -/
def bufferMethod (fs : List (Nat × Val)) (x : Nat) (args : List Val) : M (List Val) :=
  match fs, args with
  | [(0, .str bs)], [] =>
    if x = name! "Bytes" then do
      let a ← alloc (.arr (bs.map (.u8 tyU8)))
      pure [.slice noName (.u8 tyU8) (some ⟨a, 0, bs.length, bs.length⟩)]
    else stuck
  | _, _ => stuck

/-- `os.File.Write`: an unknown number of bytes is written; an error if it is not all. -/
def fileMethod (m : Machine) (a x : Nat) (args : List Val) : M (List Val) := do
  match ← load a, args with
  | .effect (.file path content), [.slice _ (.u8 _) s] =>
    if x = name! "Write" then do
      let bs ← readBytes s
      store a (.effect (.file path (content ++ bs.take (m.write bs))))
      survive m (.file path (content ++ bs.take (m.write bs)))
      pure [.int tyInt (min (m.write bs) bs.length), .err (if bs.length ≤ m.write bs then none else some (.os 0))]
    else stuck
  | _, _ => stuck

/-- `format.Source(src)` -/
def formatSource (m : Machine) (s : Option Sl) : M (List Val) := do
  let bs ← readBytes s
  match m.format bs with
  | .ok src => do
    let a ← alloc (.arr (src.map (.u8 tyU8)))
    pure [.slice noName (.u8 tyU8) (some ⟨a, 0, src.length, src.length⟩), .err none]
  | .error t => pure [.slice noName (.u8 tyU8) none, .err (some (.text t))]

/-- `p.x(args)`, where `p` is an imported package that is not in the program. -/
def callLibrary (c : Ctx) (p x : Nat) (args : List Val) : M (List Val) :=
  if p = name! "bytes" ∧ x = name! "Cut" then
    match args with
    | [.slice _ (.u8 u) s, .slice _ (.u8 _) sep] => cutOf (.u8 u) s sep
    | _ => stuck
  else if p = name! "bytes" ∧ x = name! "TrimSpace" then
    match args with
    | [.slice _ (.u8 u) s] => trimOf (.u8 u) s
    | _ => stuck
  else if p = name! "bytes" ∧ x = name! "Split" then
    match args with
    | [.slice _ (.u8 u) s, .slice _ (.u8 _) sep] => splitOf (.u8 u) s sep
    | _ => stuck
  else if p = name! "strconv" ∧ x = name! "ParseUint" then
    match args with
    | [.str s, .const 16, .const 32] =>
      match ParseUint s with
      | some n => pure [.wide tyU64 n, .err none]
      | none => pure [.wide tyU64 0, .err (some .syntax)] -- (or another number)
    | _ => stuck
  else if p = name! "strconv" ∧ x = name! "ParseInt" then
    match args with
    | [.str s, .const 16, .const 32] =>
      match ParseInt s with
      | some n => pure [.wide tyI64 n, .err none]
      | none => pure [.wide tyI64 0, .err (some .syntax)] -- (or another number)
    | _ => stuck
  else if p = name! "fmt" ∧ x = name! "Errorf" then do
    let args ← formatArgs args
    pure [.err (some (.text (c.m.sprintf args)))]
  else if p = name! "filepath" ∧ x = name! "Join" then pure [.str (c.m.join args)]
  else if p = name! "os" ∧ x = name! "Open" then
    match args with
    | [.str s] =>
      match c.m.open_ s with
      | .ok id => pure [.reader id, .err none]
      | .error n => pure [.ptr ⟨name! "os", name! "File"⟩ 0, .err (some (.os n))] -- the nil pointer
    | _ => stuck
  else if p = name! "bufio" ∧ x = name! "NewScanner" then
    match args with
    | [.reader id] => do
      let a ← alloc (.scan id 0 none)
      pure [.ptr tyScanner a]
    | _ => stuck
  else if p = name! "slices" ∧ x = name! "Collect" then
    match args with
    | [f] => collectOf c f
    | _ => stuck
  else if p = name! "fmt" ∧ (x = name! "Fprint" ∨ x = name! "Fprintln" ∨ x = name! "Fprintf") then fprint c x args
  else if p = name! "format" ∧ x = name! "Source" then
    match args with
    | [.slice _ (.u8 _) s] => formatSource c.m s
    | _ => stuck
  else if p = name! "os" ∧ x = name! "Create" ∧ c.pkg = name! "main" then
    match args with
    | [.str s] =>
      match c.m.create s with
      | .ok () => do
        let a ← alloc (.effect (.file s []))
        survive c.m (.file s [])
        pure [.ptr tyFile a, .err none]
      | .error n => pure [.ptr tyFile 0, .err (some (.os n))] -- the nil pointer
    | _ => stuck
  else if p = name! "os" ∧ x = name! "Exit" then
    match args with
    | [.const n] => exit_ n.toNat
    | _ => stuck
  else stuck

/-- `p.x(args)`, where `p` is an imported package. -/
def callQualified (c : Ctx) (p x : Nat) (args : List Val) : M (List Val) :=
  match find p x c.prog with
  | some (.func _, _) => c.callFunc p x args
  | some _ => stuck
  | none =>
    if p = name! "utf8" ∧ x = name! "EncodeRune" then
      match args with
      | [.slice _ (.u8 _) s, .rune _ r] => do
        writeBytes s (EncodeRune r)
        pure [.int tyInt (EncodeRune r).length]
      | _ => stuck
    else if p = name! "fmt" ∧ x = name! "Sprintf" then do
      let args ← formatArgs args
      pure [.str (c.m.sprintf args)]
    else callLibrary c p x args

/-- `append(s, t...)` -/
def appendOf (m : Machine) (vs : List Val) : M (List Val) :=
  match vs with
  | [.slice t e s, .slice _ e' s'] =>
    if e = e' then do
      let xs ← readSlice s'
      let r ← appendSlice m e s xs
      pure [.slice t e r]
    else stuck
  | _ => stuck

/-- `append(s, v)` -/
def appendOne (m : Machine) (vs : List Val) : M (List Val) :=
  match vs with
  | [.slice t e s, v] => do
    let v ← assignTo m.W e v
    let r ← appendSlice m e s [v]
    pure [.slice t e r]
  | _ => stuck

/-- `&v`, where `v` is a struct in a composite literal -/
def newStruct (v : Val) : M (List Val) :=
  match v with
  | .struct t fs => do
    let a ← alloc (.struct t fs)
    pure [.ptr t a]
  | _ => stuck

/-- `&v[i]` -/
def addrElem (v i : Val) : M (List Val) :=
  match extent v with
  | some (e, s) => do
    let i ← indexValue i
    let (a, j) ← position s i
    pure [.ptrElem e a j]
  | none => stuck

/-- `*v` -/
def derefOf (v : Val) : M (List Val) :=
  match v with
  | .ptrElem _ a i => do
    let r ← loadElem a i
    pure [r]
  | .ptr _ a => do
    let r ← loadStruct a
    pure [r]
  | _ => stuck

/-- The bound of a slice expression, which may be omitted; `x` evaluates the expression. -/
def boundOf (e : Expr) (x : M (List Val)) : M (Option Int) :=
  match e with
  | .omitted => pure none
  | _ => do
    let v ← x
    let v ← single v
    let i ← indexValue v
    pure (some i)

/-- A composite literal of type `t`; `keyed` evaluates the fields of a struct, `args` the elements of a slice. -/
def compOf (c : Ctx) (t : Ty) (keyed : M (List (Nat × Val))) (args : M (List Val)) : M Val := do
  let t ← resolve c t
  match t with
  | .struct t => do
    let given ← keyed
    match find t.pkg t.name c.prog with
    | some (.struct fs, _) => do
      if given.all fun (x, _) => fs.any fun (y, _) => x = y then do
        let fs ← makeStruct c given fs
        pure (.struct t fs)
      else stuck
    | _ => stuck
  | .slice t e => do
    let vs ← args
    let vs ← elements c.m.W e vs
    let a ← alloc (.arr vs)
    pure (.slice t e (some ⟨a, 0, vs.length, vs.length⟩))
  | _ => stuck

mutual
/-- The values of an expression: one, except for a call. -/
def evalMulti (c : Ctx) (env : Env) : Expr → M (List Val)
  | .ident x =>
    match env.get x with
    | some (.cell _ a) => do
      let v ← loadStruct a
      pure [v]
    | some (.boxed a) => do
      let v ← loadBox a
      pure [v]
    | some v => pure [v]
    | none => do
      let v ← globalOrPredeclared c x
      pure [v]
  | .num n => pure [.const n]
  | .str n => pure [.str (textLine n)]
  | .sel e x => do
    if (match e with
        | .ident p => (env.get p).isNone && c.imported p
        | _ => false) then
      match e with
      | .ident p => do
        let v ← c.global p x
        pure [v]
      | _ => stuck
    else do
      let v ← evalMulti c env e
      let v ← single v
      let r ← fieldOf v x
      pure [r]
  | .call f args => do
    match f with
    | .ident x =>
      if (env.get x).isSome then
        match env.get x with
        | some v => do
          let vs ← evalArgs c env args
          c.callValue v vs
        | none => stuck
      else if x = name! "append" ∧ (find c.pkg x c.prog).isNone then do
        let vs ← evalArgs c env args
        appendOne c.m vs
      else if x = name! "make" ∧ (find c.pkg x c.prog).isNone then
        match args with
        | .cons (.ty t) rest => do
          let t ← resolve c t
          let vs ← evalArgs c env rest
          let v ← makeOf t vs
          pure [v]
        | _ => stuck
      else do
        let vs ← evalArgs c env args
        callName c x vs
    | .sel e x => do
      if (match e with
          | .ident p => (env.get p).isNone && c.imported p
          | _ => false) then do
        let vs ← evalArgs c env args
        match e with
        | .ident p => callQualified c p x vs
        | _ => stuck
      else do
        let v ← evalMulti c env e
        let v ← single v
        let vs ← evalArgs c env args
        c.callMethod v x vs
    | .ty t => do
      let vs ← evalArgs c env args
      let v ← single vs
      let t ← resolve c t
      let v ← convert c.m.W t v
      pure [v]
    | _ => stuck
  | .callSpread f args => do
    match f with
    | .ident x =>
      if x = name! "append" ∧ (env.get x).isNone ∧ (find c.pkg x c.prog).isNone then do
        let vs ← evalArgs c env args
        appendOf c.m vs
      else stuck
    | _ => stuck
  | .index e i => do
    let v ← evalMulti c env e
    let v ← single v
    let i ← evalMulti c env i
    let i ← single i
    let r ← indexOf v i
    pure [r]
  | .slice e lo hi => do
    let v ← evalMulti c env e
    let v ← single v
    let lo ← boundOf lo (evalMulti c env lo)
    let hi ← boundOf hi (evalMulti c env hi)
    let r ← sliceOf v (lo.getD 0) hi
    pure [r]
  | .bin op a b => do
    let r ← operator c.m.W op
      (do
        let v ← evalMulti c env a
        single v)
      (do
        let w ← evalMulti c env b
        single w)
    pure [r]
  | .not e => do
    let v ← evalMulti c env e
    let v ← single v
    let b ← boolValue v
    pure [.bool !b]
  | .addr e => do
    match e with
    | .comp t es => do
      let v ← compOf c t (evalKeyed c env es) (evalArgs c env es)
      newStruct v
    | .ident x =>
      match env.get x with
      | some (.cell t a) => pure [.ptr t a]
      | _ => stuck
    | .index e i => do
      let v ← evalMulti c env e
      let v ← single v
      let i ← evalMulti c env i
      let i ← single i
      addrElem v i
    | _ => stuck
  | .deref e => do
    let v ← evalMulti c env e
    let v ← single v
    derefOf v
  | .comp t es => do
    let v ← compOf c t (evalKeyed c env es) (evalArgs c env es)
    pure [v]
  | _ => stuck

/-- The values of a list of expressions, one of each. -/
def evalArgs (c : Ctx) (env : Env) : Exprs → M (List Val)
  | .nil => pure []
  | .cons e es => do
    let v ← evalMulti c env e
    let v ← single v
    let vs ← evalArgs c env es
    pure (v :: vs)

/-- The fields in a composite literal. -/
def evalKeyed (c : Ctx) (env : Env) : Exprs → M (List (Nat × Val))
  | .nil => pure []
  | .cons e es => do
    match e with
    | .keyed x e => do
      let v ← evalMulti c env e
      let v ← single v
      let vs ← evalKeyed c env es
      pure ((x, v) :: vs)
    | _ => stuck
end

/-- The value of an expression. -/
def eval (c : Ctx) (env : Env) (e : Expr) : M Val := do
  let vs ← evalMulti c env e
  single vs

/-- The values on the right-hand side of a definition or assignment with `n` variables, or after `return`: those of a call, one of
each expression, or the value for a key of a map and whether there is one. -/
def evalRight (c : Ctx) (env : Env) (n : Nat) : Exprs → M (List Val)
  | .cons e .nil =>
    match n, e with
    | 2, .index e i => do
      let v ← eval c env e
      let i ← eval c env i
      match v, i with
      | .map e a, .str k => do
        let (x, ok) ← loadMap e a k
        pure [x, .bool ok]
      | _, _ => stuck
    | _, _ => evalMulti c env e
  | es => evalArgs c env es

/-- What is assigned to. -/
inductive LVal where
  | blank
  | var (x : Nat)
  | elem (s : Option Sl) (i : Int)
  /-- the element of an array at an address and position -/
  | at (a i : Nat)
  | mapElem (e : GTy) (a : Nat) (k : GoString)
  | field (a : Nat) (x : Nat)

/-- The operands on the left of an assignment. -/
def evalL (c : Ctx) (env : Env) : Expr → M LVal
  | .ident x => if x = name! "_" then pure .blank else pure (.var x)
  | .index e i => do
    let v ← eval c env e
    let i ← eval c env i
    match v, i with
    | .map e a, .str k => pure (.mapElem e a k)
    | v, i =>
      match extent v with
      | some (_, s) => do
        let i ← indexValue i
        pure (.elem s i)
      | none => stuck
  | .sel e x =>
    match e with
    | .ident y =>
      match env.get y with
      | some (.ptr _ a) => pure (.field a x)
      | some (.cell _ a) => pure (.field a x)
      | _ => stuck
    | _ => stuck
  | .deref e => do
    match ← eval c env e with
    | .ptrElem _ a i => pure (.at a i)
    | _ => stuck
  | _ => stuck

def evalLs (c : Ctx) (env : Env) : Exprs → M (List LVal)
  | .nil => pure []
  | .cons e es => do
    let l ← evalL c env e
    let ls ← evalLs c env es
    pure (l :: ls)

/-- `v`, converted to the type of the value `old` that it replaces. -/
def replace (W : Nat) (old v : Val) : M Val :=
  match typeOf old with
  | some t => assignTo W t v
  | none => stuck

/-- The present value. -/
def loadL (env : Env) : LVal → M Val
  | .var x =>
    match env.get x with
    | some (.cell _ a) => loadStruct a
    | some (.boxed a) => loadBox a
    | some v => pure v
    | none => stuck
  | .elem s i => do
    let (a, j) ← position s i
    loadElem a j
  | .at a i => loadElem a i
  | .field a x => do
    match ← load a with
    | .struct _ fs => fieldGet x fs
    | _ => stuck
  | _ => stuck

/-- The assignment of a value. -/
def storeL (W : Nat) (env : Env) (l : LVal) (v : Val) : M Env :=
  match l with
  | .blank => pure env
  | .var x =>
    match env.get x with
    | some (.cell t a) =>
      match v with
      | .struct t' fs => if t = t' then do
          store a (.struct t fs)
          pure env
        else stuck
      | _ => stuck
    | some (.boxed a) => do
      let old ← loadBox a
      let v ← replace W old v
      store a (.box v)
      pure env
    | some old => do
      let v ← replace W old v
      pure (env.set x v)
    | none => stuck
  | .elem s i => do
    let (a, j) ← position s i
    let old ← loadElem a j
    let v ← replace W old v
    storeElem a j v
    pure env
  | .at a i => do
    let old ← loadElem a i
    let v ← replace W old v
    storeElem a i v
    pure env
  | .mapElem e a k => do
    let v ← assignTo W e v
    storeMap a k v
    pure env
  | .field a x => do
    match ← load a with
    | .struct t fs => do
      let old ← fieldGet x fs
      let v ← replace W old v
      store a (.struct t (fieldSet x v fs))
      pure env
    | _ => stuck

def storeLs (W : Nat) (env : Env) : List LVal → List Val → M Env
  | [], [] => pure env
  | l :: ls, v :: vs => do
    let env ← storeL W env l v
    storeLs W env ls vs
  | _, _ => stuck

/-- A new variable. -/
def declare (env : Env) (x : Nat) (v : Val) : M Env :=
  match v with
  | .struct t fs => do
    let a ← alloc (.struct t fs)
    pure ((x, .cell t a) :: env)
  | v => pure ((x, v) :: env)

/-- `x, y := …`: a variable that was declared in the same block (the first `env.length - base` ones) is assigned to. -/
def defineAll (W base : Nat) (env : Env) : List Nat → List Val → M Env
  | [], [] => pure env
  | x :: xs, v :: vs => do
    let env' ← (if x = name! "_" then pure env
      else if (Env.get x (env.take (env.length - base))).isSome then storeL W env (.var x) v
      else do
        let v ← defineAs W v
        declare env x v)
    defineAll W base env' xs vs
  | _, _ => stuck

/-- `var x, y T` -/
def declareZero (env : Env) (t : GTy) : List Nat → M Env
  | [] => pure env
  | x :: xs => do
    match t with
    | .array e n => do
      let z ← zeroValue e
      let a ← alloc (.arr (List.replicate n z))
      declareZero ((x, .array e a n) :: env) t xs
    | .struct u =>
      if u = tyBuffer then do
        let a ← alloc (.struct u [(0, .str [])])
        declareZero ((x, .cell u a) :: env) t xs
      else stuck
    | t => do
      let z ← zeroValue t
      declareZero ((x, z) :: env) t xs

/-- The variables that a function literal captures are moved to the memory. -/
def capture : Env → M Env
  | [] => pure []
  | (x, v) :: env => do
    let env ← capture env
    match v with
    | .cell t a => pure ((x, .cell t a) :: env)
    | .boxed a => pure ((x, .boxed a) :: env)
    | v => do
      let a ← alloc (.box v)
      pure ((x, .boxed a) :: env)

/-- How a statement ends: normally, with the local variables; by `return`; by `break` or `continue`. -/
inductive Out where
  | next (env : Env)
  | ret (vs : List Val)
  | brk (env : Env)
  | cont (env : Env)
deriving Repr

/-- Leaves a block: the variables that were declared in it are forgotten. -/
def leave (n : Nat) : Out → Out
  | .next env => .next (env.drop (env.length - n))
  | .ret vs => .ret vs
  | .brk env => .brk (env.drop (env.length - n))
  | .cont env => .cont (env.drop (env.length - n))

/-- A loop: `body` is repeated while `cond` holds, with `post` in between. -/
def loopN (cond : Env → M Bool) (body post : Env → M Out) : (bound : Nat) → Env → M Out
  | 0, _ => halt .bound
  | bound + 1, env => do
    if ← cond env then
      match ← body env with
      | .ret vs => pure (.ret vs)
      | .brk env => pure (.next env)
      | .next env | .cont env =>
        match ← post env with
        | .next env => loopN cond body post bound env
        | _ => stuck
    else pure (.next env)

/-- `body` for the next `n` positions from `i`. -/
def rangeN (body : Nat → Env → M Out) : (n i : Nat) → Env → M Out
  | 0, _, env => pure (.next env)
  | n + 1, i, env => do
    match ← body i env with
    | .ret vs => pure (.ret vs)
    | .brk env => pure (.next env)
    | .next env | .cont env => rangeN body n (i + 1) env

/-- The variables of `for k, v := range`, at position `i`. -/
def rangeVars (s : Sl) (k v : Nat) (i : Nat) (env : Env) : M Env := do
  let env := if k = 0 ∨ k = name! "_" then env else (k, .int tyInt i) :: env
  if v = 0 ∨ v = name! "_" then pure env
  else do
    let x ← loadElem s.a (s.off + i)
    declare env v x

mutual
/-- A statement; `L` bounds the number of iterations of a loop, `base` is the number of variables outside the block. -/
def exec (c : Ctx) (L : Nat) : Stmt → (base : Nat) → Env → M Out
  | .skip, _, env => pure (.next env)
  | .define xs es, base, env => do
    let vs ← evalRight c env xs.length es
    let env ← defineAll c.m.W base env xs vs
    pure (.next env)
  | .assign ls es, _, env => do
    let ls ← evalLs c env ls
    let vs ← evalRight c env ls.length es
    let env ← storeLs c.m.W env ls vs
    pure (.next env)
  | .opAssign op l e, _, env => do
    let l ← evalL c env l
    let old ← loadL env l
    let v ← eval c env e
    let v ← binary c.m.W op old v
    let env ← storeL c.m.W env l v
    pure (.next env)
  | .varDecl xs t, _, env => do
    let t ← resolve c t
    let env ← declareZero env t xs
    pure (.next env)
  | .expr e, _, env => do
    let _ ← evalMulti c env e
    pure (.next env)
  | .ret es, _, env => do
    match es with
    | .cons (.funcLit ps _ body) .nil => do
      let env ← capture env
      let a ← alloc (.closure c.pkg c.imports ps body env)
      pure (.ret [.func a])
    | es => do
      let vs ← evalRight c env 0 es
      pure (.ret vs)
  | .ifThen init cond thn els, _, env => do
    match ← exec c L init env.length env with
    | .next env' => do
      let v ← eval c env' cond
      if ← boolValue v then do
        let o ← execs c L thn env'.length env'
        pure (leave env.length o)
      else do
        let o ← execs c L els env'.length env'
        pure (leave env.length o)
    | _ => stuck
  | .loop init cond post body, _, env => do
    match ← exec c L init env.length env with
    | .next env' => do
      let o ← loopN
        (fun env =>
          match cond with
          | .omitted => pure true
          | cond => do
            let v ← eval c env cond
            boolValue v)
        (fun env => do
          let o ← execs c L body env.length env
          pure (leave env.length o))
        (fun env => exec c L post env.length env) L env'
      pure (leave env.length o)
    | _ => stuck
  | .range k v e body, _, env => do
    let r ← eval c env e
    match extent r with
    | some (_, s) =>
      match s with
      | some s =>
        rangeN (fun i env => do
          let env' ← rangeVars s k v i env
          let o ← execs c L body env'.length env'
          pure (leave env.length o)) s.len 0 env
      | none => pure (.next env)
    | none => stuck
  | .switch tag clauses, _, env => do
    let v ← eval c env tag
    let r ← execCases c L v clauses env
    let o ← (match r with
      | some o => pure o
      | none => execDefault c L clauses env)
    match leave env.length o with
    | .brk env => pure (.next env)
    | o => pure o
  | .block ss, _, env => do
    let o ← execs c L ss env.length env
    pure (leave env.length o)
  | .brk, _, env => pure (.brk env)
  | .cont, _, env => pure (.cont env)

/-- Statements one after the other. -/
def execs (c : Ctx) (L : Nat) : Stmts → (base : Nat) → Env → M Out
  | .nil, _, env => pure (.next env)
  | .cons s ss, base, env => do
    match ← exec c L s base env with
    | .next env => execs c L ss base env
    | o => pure o

/-- The first clause of a `switch` with an expression that equals the tag. -/
def execCases (c : Ctx) (L : Nat) (tag : Val) : Clauses → Env → M (Option Out)
  | .nil, _ => pure none
  | .dflt _ rest, env => execCases c L tag rest env
  | .case es body rest, env => do
    if ← matches_ c env tag es then do
      let o ← execs c L body env.length env
      pure (some o)
    else execCases c L tag rest env

/-- The default clause of a `switch`. -/
def execDefault (c : Ctx) (L : Nat) : Clauses → Env → M Out
  | .nil, env => pure (.next env)
  | .dflt body _, env => execs c L body env.length env
  | .case _ _ rest, env => execDefault c L rest env

/-- Whether one of the expressions of a clause equals the tag. -/
def matches_ (c : Ctx) (env : Env) (tag : Val) : Exprs → M Bool
  | .nil => pure false
  | .cons e es => do
    let v ← eval c env e
    let v ← binary c.m.W .eq tag v
    if ← boolValue v then pure true else matches_ c env tag es
end

/-- The parameters of a function, with the arguments. -/
def bindParams (c : Ctx) (env : Env) : List (Nat × Ty) → List Val → M Env
  | [], [] => pure env
  | (x, t) :: ps, v :: vs => do
    let t ← resolve c t
    let v ← assignTo c.m.W t v
    let env ← declare env x v
    bindParams c env ps vs
  | _, _ => stuck

/-- The results of a function, converted to their types. -/
def results (c : Ctx) : List (Nat × Ty) → List Val → M (List Val)
  | [], [] => pure []
  | (_, t) :: ps, v :: vs => do
    let t ← resolve c t
    let v ← assignTo c.m.W t v
    let rest ← results c ps vs
    pure (v :: rest)
  | _, _ => stuck

/-- A call: the receiver and the arguments are bound, the body is executed. (Results with names are not covered.) -/
def callWith (c : Ctx) (L : Nat) (f : Func) (recv : Option Val) (args : List Val) : M (List Val) := do
  let env0 ← (match f.recv, recv with
    | some p, some v => bindParams c [] [p] [v]
    | none, none => pure []
    | _, _ => stuck)
  let env ← bindParams c env0 f.params args
  match ← execs c L f.body 0 env with
  | .ret vs => results c f.results vs
  | .next _ => if f.results.isEmpty then pure [] else stuck
  | _ => stuck

/-- What a reference to other code means. -/
inductive Ref where
  | global (pkg x : Nat)
  | func (pkg x : Nat) (args : List Val)
  | method (v : Val) (x : Nat) (args : List Val)
  /-- a call of a function value -/
  | value (v : Val) (args : List Val)

/-- The context of code in a package, where references mean `self`. -/
def mkCtx (prog : Program) (m : Machine) (self : Ref → M (List Val)) (pkg : Nat) (imports : List Nat) : Ctx :=
  { prog, m, pkg, imports,
    global := fun p x => do
      let vs ← self (.global p x)
      single vs
    callFunc := fun p x args => self (.func p x args)
    callMethod := fun v x args => self (.method v x args)
    callValue := fun v args => self (.value v args) }

/-- The type whose methods a value has. -/
def methodType : Val → Option TyId
  | .ptr t _ => some t
  | .struct t _ => some t
  | .slice t _ _ => some t
  | _ => none

/-- The package-level variables, with their values. (They are never assigned to.) -/
abbrev Vars := List ((Nat × Nat) × Val)

/-- The value of a package-level constant or variable. -/
def globalValue (c : Ctx) (vars : Vars) (p x : Nat) : Global → M Val
  | .const t e iota => do
    let v ← eval c [(name! "iota", .const iota)] e
    match t with
    | none => pure v
    | some t => do
      let t ← resolve c t
      assignTo c.m.W t v
  | .var _ =>
    match vars.lookup (p, x) with
    | some v => pure v
    | none => stuck
  | _ => stuck

/-- The methods of `bufio.Scanner`. -/
def scannerMethod (m : Machine) (a x : Nat) (args : List Val) : M (List Val) := do
  match ← load a, args with
  | .scan id pos line, [] =>
    if x = name! "Scan" then
      match m.lines id pos with
      | .error p => panic_ p
      | .ok r => do
        (match line with
          | none => pure ()
          | some s => do
            match ← load s.a with
            | .arr l => store s.a (.arr ((List.range l.length).map fun i => .u8 tyU8 (m.junk id pos i)))
            | _ => stuck)
        match r with
        | none => do
          store a (.scan id (pos + 1) none)
          pure [.bool false]
        | some bs => do
          let b ← alloc (.arr (bs.map (.u8 tyU8)))
          store a (.scan id (pos + 1) (some ⟨b, 0, bs.length, bs.length⟩))
          pure [.bool true]
    else if x = name! "Bytes" then pure [.slice noName (.u8 tyU8) line]
    else if x = name! "Err" then pure [.err ((m.scanErr id pos).map .io)]
    else stuck
  | _, _ => stuck

/-- A call of a function value: a function literal, or the function that collects strings. -/
def callValue (mk : (pkg : Nat) → (imports : List Nat) → Ctx) (L : Nat) (v : Val) (args : List Val) : M (List Val) :=
  match v with
  | .func a => do
    match ← load a with
    | .closure pkg imports ps body env => do
      let c := mk pkg imports
      let env ← bindParams c env ps args
      match ← execs c L body 0 env with
      | .ret vs => pure vs
      | .next _ => pure []
      | _ => stuck
    | _ => stuck
  | .collect a =>
    match args with
    | [.str s] => do
      match ← load a with
      | .arr l => do
        store a (.arr (l ++ [.str s]))
        pure [.bool true]
      | _ => stuck
    | _ => stuck
  | _ => stuck

/-- The result of a reference, given the results of references in the code that it refers to. -/
def runStep (prog : Program) (m : Machine) (vars : Vars) (L : Nat) (self : Ref → M (List Val)) : Ref → M (List Val)
  | .global p x =>
    match find p x prog with
    | some (g, imports) => do
      let v ← globalValue (mkCtx prog m self p imports) vars p x g
      pure [v]
    | none =>
      if p = name! "io" ∧ x = name! "EOF" then pure [.err (some (.io .eof))]
      else if p = name! "os" ∧ x = name! "Stderr" then pure [.ptr tyStderr 0]
      else if p = name! "math" ∧ x = name! "MaxUint8" then pure [.const 255]
      else stuck
  | .func p x args =>
    match find p x prog with
    | some (.func f, imports) => callWith (mkCtx prog m self p imports) L f none args
    | _ => stuck
  | .method v x args =>
    match methodType v with
    | some t =>
      match findMethod t x prog with
      | some (f, imports) => callWith (mkCtx prog m self t.pkg imports) L f (some v) args
      | none =>
        match v with
        | .ptr t a => if t = tyScanner then scannerMethod m a x args else if t = tyFile then fileMethod m a x args else stuck
        | .struct t fs => if t = tyBuffer then bufferMethod fs x args else stuck
        | _ => stuck
    | none => stuck
  | .value v args => callValue (mkCtx prog m self) L v args

/-- The result of a reference; `depth` bounds the depth of references, `L` the number of iterations of loops. -/
def run (prog : Program) (m : Machine) (vars : Vars) (L : Nat) : (depth : Nat) → Ref → M (List Val)
  | 0 => fun _ => halt .bound
  | depth + 1 => runStep prog m vars L (run prog m vars L depth)

/-- The package-level variables of a file are initialised in the order of their declarations. (Go orders them by their
dependencies; the initial values of the files covered do not depend on other variables.) -/
def initDecls (prog : Program) (m : Machine) (L depth : Nat) (f : File) : List Decl → Vars → M Vars
  | [], vars => pure vars
  | .var x e :: ds, vars => do
    let v ← eval (mkCtx prog m (run prog m vars L depth) f.pkg f.imports) [] e
    let v ← defineAs m.W v
    initDecls prog m L depth f ds (((f.pkg, x), v) :: vars)
  | .varZero _ _ :: _, _ => stuck
  | _ :: ds, vars => initDecls prog m L depth f ds vars

def initFiles (prog : Program) (m : Machine) (L depth : Nat) : List File → Vars → M Vars
  | [], vars => pure vars
  | f :: fs, vars => do
    let vars ← initDecls prog m L depth f f.decls vars
    initFiles prog m L depth fs vars

end Textseg.GoMem
