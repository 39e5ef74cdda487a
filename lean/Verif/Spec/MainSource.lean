import Verif.Spec.BuildSource
import Verif.Spec.GenMain
/-!
# What the source text of the command charprops/generate.go means: what is seen from outside
-/

namespace Textseg.Spec
open Textseg GoMem
open Textseg.GoLang (Halt Effect)

/-- The program is initialised, from an empty memory; then `main.main()`. -/
def commandSession (prog : Program) (m : Machine) (L depth : Nat) : M (List Val) := do
  let vars ← initFiles prog m L depth prog []
  run prog m vars L depth (.func (name! "main") (name! "main") [])

/-- How the process ends: its exit status, and what it has done to the outside world, in order. It ends when `main` returns (status 0)
or calls `os.Exit`, or when it is killed (status 137). -/
def processEnd : Except Halt (List Val × Heap) → Option (Nat × List Effect)
  | .ok (_, h) => some (0, effectsOf h)
  | .error (.exit n es) => some (n, es)
  | .error _ => none

/-- The command ends with this status and these effects, with all sufficiently large bounds on the number of iterations and the
depth of calls. -/
def CommandEnds (prog : Program) (m : Machine) (status : Nat) (effects : List Effect) : Prop :=
  ∃ b, ∀ L depth, b ≤ L → b ≤ depth → processEnd (commandSession prog m L depth []) = some (status, effects)

/-- The command panics, and has done nothing before that is seen from outside: whichever are the effects after which the process is killed, it
is not killed but panics. -/
def CommandPanics (prog : Program) (m : Machine) : Prop :=
  ∀ killed, ∃ b, ∀ L depth, b ≤ L → b ≤ depth → ∃ p, commandSession prog { m with killed := killed } L depth [] = .error (.panic p)

/-- The process is never killed. -/
def NeverKilled (m : Machine) : Prop := ∀ e, m.killed e = false

/-- The status of a process whose last effect is `e` and that exits with `status` unless it is killed. -/
def statusAfter (m : Machine) (e : Effect) (status : Nat) : Nat := if m.killed e then 137 else status

/-- The message for an error: `Error: ` and the error. -/
def errorMessage (m : Machine) (e : GoErr) : Effect := .message (m.sprintf [.str (str "Error: %s\n"), .err (some e)])

/-- The file that the command writes. -/
def tableName : GoString := str "property_table_raw.go"

/-- The machine `m` opens the file whose path is joined from `args` as the operating system `os` opens `path`: neither can, or what
`bufio.Scanner` says about the one is what it says about the other. -/
def OpensAs {σ : Type} (m : Machine) (args : List Val) (os : Gen.OS σ) (path : String) : Prop :=
  (∃ n msg, m.open_ (m.join args) = .error n ∧ os.openFile path = .error msg) ∨
  (∃ id rd, m.open_ (m.join args) = .ok id ∧ os.openFile path = .ok rd ∧ Scans m id 0 os.read (newScanner rd 0))

/-- The machine `m` does what the operating system `os` and the formatter `formatSource` do. -/
structure SameOS {σ : Type} (m : Machine) (os : Gen.OS σ) (formatSource : GoString → Except String GoString) : Prop where
  gbp : OpensAs m [.str (str "ucd"), .str (str "auxiliary"), .str (str "GraphemeBreakProperty.txt")] os "ucd/auxiliary/GraphemeBreakProperty.txt"
  emoji : OpensAs m [.str (str "ucd"), .str (str "emoji"), .str (str "emoji-data.txt")] os "ucd/emoji/emoji-data.txt"
  dcp : OpensAs m [.str (str "ucd"), .str (str "DerivedCoreProperties.txt")] os "ucd/DerivedCoreProperties.txt"
  create : (∃ n msg, m.create tableName = .error n ∧ os.create "property_table_raw.go" = .error msg) ∨
    (m.create tableName = .ok () ∧ os.create "property_table_raw.go" = .ok ())
  write : m.write = os.write
  runs : NeverKilled m
  format : ∀ buf, (∃ t msg, m.format buf = .error t ∧ formatSource buf = .error msg) ∨ (∃ src, m.format buf = .ok src ∧ formatSource buf = .ok src)

/-- The error of the model and the error of the machine are the same error: of opening a data file, of the contents of a data file, of the
formatter, of creating the file. -/
inductive SameError (m : Machine) : Gen.GenErr → GoErr → Prop
  | gbp (n : Nat) (msg : String) : m.open_ (m.join [.str (str "ucd"), .str (str "auxiliary"), .str (str "GraphemeBreakProperty.txt")]) = .error n →
      SameError m (.os "ucd/auxiliary/GraphemeBreakProperty.txt" msg) (.os n)
  | emoji (n : Nat) (msg : String) : m.open_ (m.join [.str (str "ucd"), .str (str "emoji"), .str (str "emoji-data.txt")]) = .error n →
      SameError m (.os "ucd/emoji/emoji-data.txt" msg) (.os n)
  | dcp (n : Nat) (msg : String) : m.open_ (m.join [.str (str "ucd"), .str (str "DerivedCoreProperties.txt")]) = .error n →
      SameError m (.os "ucd/DerivedCoreProperties.txt" msg) (.os n)
  | reading (file : String) (e : ParseErr) : SameError m (.reading file e) (readingError m file e)
  | format (buf t : GoString) (msg : String) : m.format buf = .error t → SameError m (.format msg) (.text t)
  | create (n : Nat) (msg : String) : m.create tableName = .error n → SameError m (.os "property_table_raw.go" msg) (.os n)

/-- The formatter of the machine changes the layout only. -/
def FormatKeepsTokens (m : Machine) : Prop := ∀ buf src, m.format buf = .ok src → goTokens src = goTokens buf

end Textseg.Spec
