import Verif.GoLang.Parser
import Verif.GoLang.Eval
/-!
# Packages: build constraints, imports with names, forwarding functions, go.mod

What is needed to read the files of autoversion/textseg, which `GoLang/Parser.lean` does not cover: which files of a package are compiled
(pkg.go.dev/cmd/go#hdr-Build_constraints), which package a name in a file stands for (go.dev/ref/spec#Import_declarations), and functions
that only `return pkg.F(args)`. Everything else is an error (`none`).
-/

namespace Textseg.GoLang.Pkg
open Textseg GoLang

/-- A build constraint. -/
inductive Constraint where
  | tag (t : List UInt8)
  | not (c : Constraint)
  | and (c d : Constraint)
  | or (c d : Constraint)
deriving DecidableEq, Repr

/-- Whether a constraint is satisfied, if the tags with `tags` are. -/
def Constraint.eval (tags : List UInt8 → Bool) : Constraint → Bool
  | .tag t => tags t
  | .not c => !c.eval tags
  | .and c d => c.eval tags && d.eval tags
  | .or c d => c.eval tags || d.eval tags

def isTagByte (b : UInt8) : Bool := isLetter b || isDigit b || b == 0x2E

/-- The tokens of a `//go:build` line: tags (as strings) and operators. -/
def lexConstraint : (fuel : Nat) → List UInt8 → Option (List Tok)
  | 0, _ => none
  | _ + 1, [] => some []
  | fuel + 1, b :: bs =>
    if b == 0x20 || b == 0x09 then lexConstraint fuel bs
    else if isTagByte b then
      let (w, rest) := spanBytes isTagByte (b :: bs)
      (lexConstraint fuel rest).map (.str (encode w) :: ·)
    else (lexOp (b :: bs)).bind fun (n, rest) => (lexConstraint fuel rest).map (.op n :: ·)

mutual
/-- `a || b || …` -/
def parseOr : (fuel : Nat) → List Tok → Option (Constraint × List Tok)
  | 0, _ => none
  | fuel + 1, ts => do
    let (c, ts) ← parseAnd fuel ts
    match ts with
    | .op x :: ts' =>
      if x = name! "||" then do
        let (d, ts) ← parseOr fuel ts'
        some (.or c d, ts)
      else some (c, ts)
    | _ => some (c, ts)

/-- `a && b && …` -/
def parseAnd : (fuel : Nat) → List Tok → Option (Constraint × List Tok)
  | 0, _ => none
  | fuel + 1, ts => do
    let (c, ts) ← parseNot fuel ts
    match ts with
    | .op x :: ts' =>
      if x = name! "&&" then do
        let (d, ts) ← parseAnd fuel ts'
        some (.and c d, ts)
      else some (c, ts)
    | _ => some (c, ts)

/-- `!a`, `(a)` and tags -/
def parseNot : (fuel : Nat) → List Tok → Option (Constraint × List Tok)
  | 0, _ => none
  | fuel + 1, ts =>
    match ts with
    | .str t :: ts => some (.tag (textLine t), ts)
    | .op x :: ts =>
      if x = name! "!" then do
        let (c, ts) ← parseNot fuel ts
        some (.not c, ts)
      else if x = name! "(" then do
        let (c, ts) ← parseOr fuel ts
        let ts ← skipOp (name! ")") ts
        some (c, ts)
      else none
    | _ => none
end

/-- The constraint after `//go:build`. -/
def parseGoBuild (bs : List UInt8) : Option Constraint := do
  let ts ← lexConstraint (bs.length + 1) bs
  match ← parseOr (4 * ts.length + 4) ts with
  | (c, []) => some c
  | _ => none

/-- The words of a line, separated by spaces or tabs (or another set of bytes). -/
def splitWords (sep : UInt8 → Bool) (bs : List UInt8) : List (List UInt8) :=
  (bs.foldr (fun b (ws : List (List UInt8)) =>
    if sep b then [] :: ws else match ws with
      | [] => [[b]]
      | w :: ws => (b :: w) :: ws) [[]]).filter (· ≠ [])

def isBlank (b : UInt8) : Bool := b == 0x20 || b == 0x09 || b == 0x0D

/-- A tag or a negated tag in the old syntax. -/
def parseOldTerm : List UInt8 → Option Constraint
  | 0x21 :: bs => if bs ≠ [] ∧ bs.all isTagByte then some (.not (.tag bs)) else none
  | bs => if bs ≠ [] ∧ bs.all isTagByte then some (.tag bs) else none

/-- The constraint after `// +build`: a comma is "and", a space is "or". -/
def parsePlusBuild (bs : List UInt8) : Option Constraint := do
  let options ← (splitWords isBlank bs).mapM fun w => do
    let terms ← (splitWords (· == 0x2C) w).mapM parseOldTerm
    match terms with
    | [] => none
    | t :: ts => some (ts.foldl .and t)
  match options with
  | [] => none
  | o :: os => some (os.foldl .or o)

/-- The lines before the package clause: the first lines that are blank or comments. -/
def headerLines : List Nat → List (List UInt8)
  | [] => []
  | l :: ls =>
    let bs := (textLine l).dropWhile isBlank
    if bs = [] ∨ bs.take 2 = [0x2F, 0x2F] then bs :: headerLines ls else []

/-- What follows a prefix. -/
def afterPrefix (p bs : List UInt8) : Option (List UInt8) := if bs.take p.length = p then some (bs.drop p.length) else none

/-- The `//go:build` line (there may be at most one; without it the file is always compiled). -/
def goBuildOf (lines : List Nat) : Option (Option Constraint) :=
  match (headerLines lines).filterMap (afterPrefix (str "//go:build ")) with
  | [] => some none
  | [bs] => (parseGoBuild bs).map some
  | _ => none

/-- The `// +build` lines (all of them must hold), which releases before 1.17 understand. -/
def plusBuildOf (lines : List Nat) : Option (List Constraint) :=
  ((headerLines lines).filterMap (afterPrefix (str "// +build "))).mapM parsePlusBuild

/-- A type: a name, a name of another package, or a slice. -/
inductive Ty where
  | name (x : Nat)
  | sel (p x : Nat)
  | slice (t : Ty)
deriving DecidableEq, Repr

/-- An import: the name that is given to the package in this file, and its path. -/
structure Import where
  name : Option Nat
  path : Nat
deriving DecidableEq, Repr

/-- The name of the package in the file. (Without a name: the last component of the path.) -/
def Import.localName (i : Import) : Nat := i.name.getD (importName i.path)

/-- `func name(params) (results) { return pkg.callee(args) }` -/
structure Forward where
  name : Nat
  params : List (Nat × Ty)
  results : List Ty
  pkg : Nat
  callee : Nat
  args : List Nat
deriving DecidableEq, Repr

inductive Decl where
  /-- `const x = value` -/
  | const (x value : Nat)
  | forward (f : Forward)
deriving DecidableEq, Repr

def Decl.name : Decl → Nat
  | .const x _ => x
  | .forward f => f.name

structure File where
  goBuild : Option Constraint
  plusBuild : List Constraint
  pkg : Nat
  imports : List Import
  decls : List Decl
deriving DecidableEq, Repr

def parseType : (fuel : Nat) → P Ty
  | 0, _ => none
  | _ + 1, .word p :: .op d :: .word x :: ts =>
    if keywords.contains p ∨ keywords.contains x then none
    else if d = name! "." then some (.sel p x, ts) else some (.name p, .op d :: .word x :: ts)
  | _ + 1, .word x :: ts => if keywords.contains x then none else some (.name x, ts)
  | fuel + 1, .op a :: .op b :: ts =>
    if a = name! "[" ∧ b = name! "]" then do
      let (t, ts) ← parseType fuel ts
      some (.slice t, ts)
    else none
  | _, _ => none

/-- Items that are separated by commas, up to the closing parenthesis. -/
def parseList {α : Type} (item : P α) : (fuel : Nat) → P (List α)
  | 0, _ => none
  | fuel + 1, ts =>
    match skipOp (name! ")") ts with
    | some ts => some ([], ts)
    | none => do
      let (a, ts) ← item ts
      match skipOp (name! ",") ts with
      | some ts => do
        let (as, ts) ← parseList item fuel ts
        some (a :: as, ts)
      | none => do
        let ts ← skipOp (name! ")") ts
        some ([a], ts)

def parseParam (fuel : Nat) : P (Nat × Ty) := fun ts => do
  let (x, ts) ← parseName ts
  let (t, ts) ← parseType fuel ts
  some ((x, t), ts)

/-- A function that only returns what a function of another package returns. -/
def parseForward (fuel : Nat) : P Forward := fun ts => do
  let (x, ts) ← parseName ts
  let ts ← skipOp (name! "(") ts
  let (ps, ts) ← parseList (parseParam fuel) fuel ts
  let ts ← skipOp (name! "(") ts
  let (rs, ts) ← parseList (parseType fuel) fuel ts
  let ts ← skipOp (name! "{") ts
  let ts ← skipWord (name! "return") ts
  let (p, ts) ← parseName ts
  let ts ← skipOp (name! ".") ts
  let (f, ts) ← parseName ts
  let ts ← skipOp (name! "(") ts
  let (as, ts) ← parseList parseName fuel ts
  let ts ← skipOp (name! ";") ts
  let ts ← skipOp (name! "}") ts
  some (⟨x, ps, rs, p, f, as⟩, ts)

def parseDecls : (fuel : Nat) → List Tok → Option (List Decl)
  | 0, _ => none
  | _ + 1, [] => some []
  | fuel + 1, .word k :: ts =>
    if k = name! "const" then
      match ts with
      | .word x :: .op e :: .num n :: .op s :: ts => do
        if keywords.contains x ∨ e ≠ name! "=" ∨ s ≠ name! ";" then none
        let ds ← parseDecls fuel ts
        some (.const x n :: ds)
      | _ => none
    else if k = name! "func" then do
      let (f, ts) ← parseForward ts.length ts
      let ts ← skipOp (name! ";") ts
      let ds ← parseDecls fuel ts
      some (.forward f :: ds)
    else none
  | _, _ => none

/-- The lines between the parentheses of an import declaration. -/
def parseImports : (fuel : Nat) → P (List Import)
  | 0, _ => none
  | _ + 1, .op x :: ts => if x = name! ")" then some ([], ts) else none
  | fuel + 1, .str p :: .op s :: ts => do
    if s ≠ name! ";" then none
    let (is, ts) ← parseImports fuel ts
    some (⟨none, p⟩ :: is, ts)
  | fuel + 1, .word x :: .str p :: .op s :: ts => do
    if keywords.contains x ∨ s ≠ name! ";" then none
    let (is, ts) ← parseImports fuel ts
    some (⟨some x, p⟩ :: is, ts)
  | _, _ => none

/-- A source file: its constraints, the package clause, at most one import declaration (with parentheses), constants and forwarding functions. -/
def parseFile (lines : List Nat) : Option File := do
  let g ← goBuildOf lines
  let o ← plusBuildOf lines
  let ts ← lexLines lines
  let ts ← skipWord (name! "package") ts
  let (p, ts) ← parseName ts
  let ts ← skipOp (name! ";") ts
  let (is, ts) ← match ts with
    | .word k :: ts' =>
      if k = name! "import" then do
        let ts ← skipOp (name! "(") ts'
        let (is, ts) ← parseImports ts.length ts
        let ts ← skipOp (name! ";") ts
        some (is, ts)
      else some ([], ts)
    | _ => some ([], ts)
  let ds ← parseDecls (ts.length + 1) ts
  some ⟨g, o, p, is, ds⟩

/-- Whether a type mentions the package `p`. -/
def Ty.uses (p : Nat) : Ty → Bool
  | .name _ => false
  | .sel q _ => q == p
  | .slice t => t.uses p

/-- Whether a declaration mentions the package `p`. -/
def Decl.uses (p : Nat) : Decl → Bool
  | .const _ _ => false
  | .forward f => f.pkg == p || (f.params.map (·.2) ++ f.results).any (·.uses p)

/-- The names of the packages that a type mentions. -/
def Ty.packages : Ty → List Nat
  | .name _ => []
  | .sel q _ => [q]
  | .slice t => t.packages

/-- Whether a file is in order by itself: different names for the imported packages, none of them unused; the packages that are mentioned are
imported; parameters have different names, none of which hides the package, and the arguments are parameters. -/
def File.ok (f : File) : Bool :=
  decide ((f.imports.map Import.localName).Nodup) &&
  f.imports.all (fun i => f.decls.any (·.uses i.localName)) &&
  f.decls.all fun d => match d with
    | .const _ _ => true
    | .forward w =>
      (f.imports.map Import.localName).contains w.pkg &&
      ((w.params.map (·.2) ++ w.results).flatMap Ty.packages).all (f.imports.map Import.localName).contains &&
      decide ((w.params.map (·.1)).Nodup) && !(w.params.map (·.1)).contains w.pkg && w.args.all (w.params.map (·.1)).contains

/-- Whether the tag `t` is satisfied for the release 1.`n` of Go, as far as release tags are concerned: `go1.1` to `go1.n`. -/
def releaseTag (n : Nat) (t : List UInt8) : Bool :=
  match afterPrefix (str "go1.") t with
  | some ds =>
    match numVal ds with
    | some k => decide (1 ≤ k ∧ k ≤ n)
    | none => false
  | none => false

/-- The files of a package that are compiled. -/
def compiled (tags : List UInt8 → Bool) (files : List File) : List File :=
  files.filter fun f => match f.goBuild with
    | some c => c.eval tags
    | none => true

/-- The package that the release 1.`n` compiles from some files; `none` if this is a compile-time error: a file that is not in order, different
package names, or a name that is declared twice (for a constant or function, or for one and an imported package). -/
def package (n : Nat) (files : List File) : Option (List File) :=
  let fs := compiled (releaseTag n) files
  if fs.all File.ok ∧ (fs.map File.pkg).all (fun p => p == (fs.map File.pkg).headD 0) ∧
    ((fs.flatMap File.decls).map Decl.name).Nodup ∧
    (fs.flatMap File.imports).all fun i => !((fs.flatMap File.decls).map Decl.name).contains i.localName
  then some fs else none

/-- The declaration of a name, and the imports of its file. -/
def declOf (x : Nat) : List File → Option (Decl × List Import)
  | [] => none
  | f :: fs =>
    match f.decls.find? (fun d => d.name == x) with
    | some d => some (d, f.imports)
    | none => declOf x fs

/-- The value of an argument, given those of the parameters. -/
def argOf {V : Type} (ps : List (Nat × Ty)) (vs : List V) (x : Nat) : Option V := ((ps.map (·.1)).zip vs).lookup x

/-- A call of a function of the package, where `other path f args` is what a call of the function `f` of the package with this path does.
`none` if there is no such function, or the number of arguments is wrong. -/
def call {V Res : Type} (other : (path f : Nat) → List V → Res) (fs : List File) (x : Nat) (vs : List V) : Option Res :=
  match declOf x fs with
  | some (.forward w, is) =>
    if w.params.length = vs.length then do
      let as ← w.args.mapM (argOf w.params vs)
      let i ← is.find? fun i => i.localName == w.pkg
      some (other i.path w.callee as)
    else none
  | _ => none

/-- The value of a constant of the package. -/
def constant (fs : List File) (x : Nat) : Option Nat :=
  match declOf x fs with
  | some (.const _ v, _) => some v
  | _ => none

/-- The declared parameter and result types of a function of the package. -/
def signature (fs : List File) (x : Nat) : Option (List Ty × List Ty) :=
  match declOf x fs with
  | some (.forward w, _) => some (w.params.map (·.2), w.results)
  | _ => none

/-- A go.mod file: the path of the module, the line `go 1.x`, and the required modules with their versions. -/
structure Mod where
  path : List UInt8
  go : Nat
  require : List (List UInt8 × List UInt8)
deriving DecidableEq, Repr

/-- The lines `path version` up to the closing parenthesis, and the other lines. -/
def requireBlock : List (List (List UInt8)) → Option (List (List UInt8 × List UInt8) × List (List (List UInt8)))
  | [] => none
  | [p, v] :: ls => (requireBlock ls).map fun (rs, ls) => ((p, v) :: rs, ls)
  | [x] :: ls => if x = str ")" then some ([], ls) else none
  | _ => none

/-- The lines of go.mod, as words: `module path`, `go 1.x` and at most one block `require ( … )`, in this order. -/
def parseMod (lines : List Nat) : Option Mod :=
  match (lines.map fun l => splitWords isBlank (textLine l)).filter (· ≠ []) with
  | [m, path] :: [g, v] :: rest =>
    if m = str "module" ∧ g = str "go" then do
      let k ← (afterPrefix (str "1.") v).bind numVal
      match rest with
      | [] => some ⟨path, k, []⟩
      | l :: ls =>
        if l = [str "require", str "("] then
          match requireBlock ls with
          | some (rs, []) => some ⟨path, k, rs⟩
          | _ => none
        else none
    else none
  | _ => none

end Textseg.GoLang.Pkg
