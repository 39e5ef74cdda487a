import Verif.GoMem.Parser
import Verif.GoMem.Eval
import Verif.Text.GentableGo
import Verif.Text.PropertyTreeGo
import Verif.Text.UcdScanGo
import Verif.Text.TestdataScanGo
import Verif.Text.PropertiesGo
import Verif.Text.GenerateGo
import Verif.Spec.GenTable
/-!
# What the source text of the table builder means

The Go files of the package `gentable`, and of the packages it imports those it uses, as texts; what a caller within the package does; what it means that a value in the memory
is a `RawPropertyTree` with given contents.
-/

namespace Textseg.Spec
open Textseg GoMem
open Textseg.GoLang (TyId tyU8 Halt)

/-- The lines of the source files: gentable/generate.go and gentable/property_tree.go, ucdparse/ucd_scan.go and
ucdparse/testdata_scan.go, charprops/properties.go, and the command charprops/generate.go. -/
def gentableSources : List (List Nat) :=
  [Text.gentableGo.flatten, Text.propertyTreeGo.flatten, Text.ucdScanGo.flatten, Text.testdataScanGo.flatten, Text.propertiesGo.flatten,
    Text.generateGo.flatten]

/-- The program in source texts. -/
def parseMem : List (List Nat) → Option Program
  | [] => some []
  | s :: ss => do
    let f ← GoMem.parseSource s
    let fs ← parseMem ss
    some (f :: fs)

/-- `t.Set(r, v)` and `t.BitwiseOr(r, v)` -/
def opCall (t : Val) : TableOp → Ref
  | .set r v => .method t (name! "Set") [.rune tyRune r, .u8 tyU8 v]
  | .bitwiseOr r v => .method t (name! "BitwiseOr") [.rune tyRune r, .u8 tyU8 v]

/-- One call after the other. -/
def opCalls (call : Ref → M (List Val)) (t : Val) : List TableOp → M Unit
  | [] => pure ()
  | o :: os => do
    let _ ← call (opCall t o)
    opCalls call t os

/-- The program is initialised, from an empty memory; then `t := newTreeInProgress()`, the calls of `t.Set` and `t.BitwiseOr`, and
`t.Compact()`. -/
def session (prog : Program) (m : Machine) (L depth : Nat) (ops : List TableOp) : M (List Val) := do
  let vars ← initFiles prog m L depth prog []
  let call := run prog m vars L depth
  let vs ← call (.func (name! "gentable") (name! "newTreeInProgress") [])
  let t ← single vs
  opCalls call t ops
  call (.method t (name! "Compact") [])

/-- The length of a slice is `n`, and its capacity is not less. -/
def HasLen (s : Option Sl) (n : Nat) : Prop :=
  match s with
  | none => n = 0
  | some s => s.len = n ∧ n ≤ s.cap

/-- In the memory `h`, the value `v` is a `RawPropertyTree` with these contents. -/
def IsRaw (h : Heap) (v : Val) (indices : List UInt16) (properties : List UInt8) : Prop :=
  ∃ s s', v = .struct ⟨name! "gentable", name! "RawPropertyTree"⟩
      [(name! "Indices", .slice noName (.u16 tyU16) s), (name! "Properties", .slice noName (.u8 tyU8) s')] ∧
    readSlice s h = .ok (indices.map (.u16 tyU16), h) ∧ readSlice s' h = .ok (properties.map (.u8 tyU8), h) ∧
    HasLen s indices.length ∧ HasLen s' properties.length

/-- The session returns a `RawPropertyTree` with these contents, with all sufficiently large bounds on the number of iterations and the
depth of calls. -/
def SessionReturns (prog : Program) (m : Machine) (ops : List TableOp) (indices : List UInt16) (properties : List UInt8) : Prop :=
  ∃ b, ∀ L depth, b ≤ L → b ≤ depth → ∃ v h, session prog m L depth ops [] = .ok ([v], h) ∧ IsRaw h v indices properties

/-- The session ends with a panic. -/
def SessionPanics (prog : Program) (m : Machine) (ops : List TableOp) : Prop :=
  ∃ b, ∀ L depth, b ≤ L → b ≤ depth → ∃ p, session prog m L depth ops [] = .error (.panic p)

end Textseg.Spec
