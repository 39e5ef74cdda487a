import Verif.Spec.UcdSource
/-!
# What the source text of `BuildRawPropertyTree` means: what a caller sees
-/

namespace Textseg.Spec
open Textseg GoMem

/-- The program is initialised, from an empty memory; then `gentable.BuildRawPropertyTree(baseDir)`. -/
def buildSession (prog : Program) (m : Machine) (L depth : Nat) (baseDir : GoString) : M (List Val) := do
  let vars ← initFiles prog m L depth prog []
  run prog m vars L depth (.func (name! "gentable") (name! "BuildRawPropertyTree") [.str baseDir])

/-- `BuildRawPropertyTree` returns a `RawPropertyTree` with these contents, and no error, with all sufficiently large bounds on the
number of iterations and the depth of calls. -/
def BuildReturns (prog : Program) (m : Machine) (baseDir : GoString) (indices : List UInt16) (properties : List UInt8) : Prop :=
  ∃ b, ∀ L depth, b ≤ L → b ≤ depth → ∃ v h, buildSession prog m L depth baseDir [] = .ok ([v, .err none], h) ∧ IsRaw h v indices properties

/-- `BuildRawPropertyTree` returns this error (and an empty `RawPropertyTree`). -/
def BuildFails (prog : Program) (m : Machine) (baseDir : GoString) (e : GoErr) : Prop :=
  ∃ b, ∀ L depth, b ≤ L → b ≤ depth → ∃ v h, buildSession prog m L depth baseDir [] = .ok ([v, .err (some e)], h) ∧ IsRaw h v [] []

/-- The error for an error in a file: `reading`, the name of the file, and the error. -/
def readingError (m : Machine) (file : String) (e : ParseErr) : GoErr :=
  .text (m.sprintf [.str (str ("reading " ++ file ++ ": %w")), .err (some (parseError m e))])

/-- `BuildRawPropertyTree` panics. -/
def BuildPanics (prog : Program) (m : Machine) (baseDir : GoString) : Prop :=
  ∃ b, ∀ L depth, b ≤ L → b ≤ depth → ∃ p, buildSession prog m L depth baseDir [] = .error (.panic p)

/-- On the machine `m`, opening the files below `baseDir` gives the readers `id1`, `id2` and `id3`. -/
structure Opens (m : Machine) (baseDir : GoString) (id1 id2 id3 : Nat) : Prop where
  gbp : m.open_ (m.join [.str baseDir, .str (str "auxiliary"), .str (str "GraphemeBreakProperty.txt")]) = .ok id1
  emoji : m.open_ (m.join [.str baseDir, .str (str "emoji"), .str (str "emoji-data.txt")]) = .ok id2
  dcp : m.open_ (m.join [.str baseDir, .str (str "DerivedCoreProperties.txt")]) = .ok id3

/-- On the machine `m`, one of the files below `baseDir` cannot be opened: the error for the first such file. -/
inductive OpenFails (m : Machine) (baseDir : GoString) : (err : Nat) → Prop where
  | gbp (n : Nat) : m.open_ (m.join [.str baseDir, .str (str "auxiliary"), .str (str "GraphemeBreakProperty.txt")]) = .error n → OpenFails m baseDir n
  | emoji (n id1 : Nat) : m.open_ (m.join [.str baseDir, .str (str "auxiliary"), .str (str "GraphemeBreakProperty.txt")]) = .ok id1 →
      m.open_ (m.join [.str baseDir, .str (str "emoji"), .str (str "emoji-data.txt")]) = .error n → OpenFails m baseDir n
  | dcp (n id1 id2 : Nat) : m.open_ (m.join [.str baseDir, .str (str "auxiliary"), .str (str "GraphemeBreakProperty.txt")]) = .ok id1 →
      m.open_ (m.join [.str baseDir, .str (str "emoji"), .str (str "emoji-data.txt")]) = .ok id2 →
      m.open_ (m.join [.str baseDir, .str (str "DerivedCoreProperties.txt")]) = .error n → OpenFails m baseDir n

end Textseg.Spec
