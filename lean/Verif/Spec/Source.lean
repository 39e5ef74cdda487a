import Verif.GoLang.Parser
import Verif.GoLang.Eval
import Verif.Model.BufioScanner
import Verif.Text.GraphemeClustersGo
import Verif.Text.StateGo
import Verif.Text.PropertyTableGo
import Verif.Text.PropertiesGo
import Verif.Text.TableText
/-!
# What the source texts of the library mean

The five Go files that `ScanGraphemeClusters` consists of, as texts; the program that the parser of `GoLang/Parser.lean` finds in
them; and what it means that a call of a function of the program has a result according to the interpreter of `GoLang/Eval.lean`.
-/

namespace Textseg.Spec
open Textseg GoLang

/-- The lines of the source files of the packages `textseg`, `textseg/internal/machine` and `textseg/internal/charprops`: all that
the compiler sees when a program imports the library. -/
def sources : List (List Nat) :=
  [Text.graphemeClustersGo.flatten, Text.stateGo.flatten, Text.propertyTableGo.flatten, Text.propertiesGo.flatten,
    Text.tableText.flatten]

/-- The program in source texts. -/
def parseAll : List (List Nat) → Option Program
  | [] => some []
  | s :: ss => do
    let f ← parseSource s
    let fs ← parseAll ss
    some (f :: fs)

/-- The outcome of a reference to a program, for `int`s of `W` bits: what the interpreter finds with all sufficiently large bounds
on the number of iterations and the depth of calls. (The outcome `.error .bound` would mean that there is none.) -/
def Outcome (prog : Program) (W : Nat) (ref : Ref) (r : R (List Val)) : Prop :=
  ∃ b, ∀ L depth, b ≤ L → b ≤ depth → run prog W L depth ref = r

/-- The type `State` of the package `machine`. -/
abbrev typeState : TyId := ⟨name! "machine", name! "State"⟩
/-- The types `CharProperties`, `GCBProperty` and `InCBProperty` of the package `charprops`. -/
abbrev typeCP : TyId := ⟨name! "charprops", name! "CharProperties"⟩
abbrev typeGCB : TyId := ⟨name! "charprops", name! "GCBProperty"⟩
abbrev typeInCB : TyId := ⟨name! "charprops", name! "InCBProperty"⟩

/-- `textseg.ScanGraphemeClusters(data, atEOF)`; `none` is the nil slice. -/
def scanCall (data : Option (List UInt8)) (atEOF : Bool) : Ref :=
  .func (name! "textseg") (name! "ScanGraphemeClusters") [.bytes data, .bool atEOF]

/-- The tokens that a caller gets who holds all the data and calls `ScanGraphemeClusters(data, true)` as long as data is left. -/
inductive CallerTokens (prog : Program) (W : Nat) : List UInt8 → List (List UInt8) → Prop
  | done : CallerTokens prog W [] []
  | next (data tok : List UInt8) (advance : Nat) (toks : List (List UInt8)) (hd : data ≠ []) (ha : advance ≤ data.length)
      (hr : Outcome prog W (scanCall (some data) true) (.ok [.int tyInt advance, .bytes (some tok), .nil]))
      (rest : CallerTokens prog W (data.drop advance) toks) : CallerTokens prog W data (tok :: toks)

/-- The split function of a `bufio.Scanner` is `ScanGraphemeClusters` of the program: for all data (nil or not) of a length that an `int` can
express it returns what a call returns. -/
def SplitsBy (prog : Program) (W : Nat) (split : SplitFunc) : Prop :=
  ∀ (data : Option (List UInt8)) (atEOF : Bool), (data.getD []).length < 2 ^ (W - 1) →
    ∃ (advance : Nat) (token : Option (List UInt8)), Outcome prog W (scanCall data atEOF) (.ok [.int tyInt advance, .bytes token, .nil]) ∧
      split (data.getD []) atEOF = .ok ⟨advance, token, none⟩

end Textseg.Spec
