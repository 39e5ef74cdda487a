import Verif.Model.GenMain
import Verif.Spec.GenFiles
import Verif.Spec.GoSource
/-!
# Specification: the generator as a command

`Event`, `OS` and `GenErr` are from `Verif/Model/GenMain.lean`: what a program does to the outside world, what the operating system
answers, and what can be reported.
-/

namespace Textseg.Spec
open Textseg.Gen

/-- The content of the file `path` after the given events, if it was `content` before (`none`: there was no such file). If the
process or the machine is stopped at some moment, a prefix of the events has happened. -/
def contentAfter (path : String) (content : Option (List UInt8)) : List Event → Option (List UInt8)
  | [] => content
  | .created p :: evs => contentAfter path (if p = path then some [] else content) evs
  | .stored p b :: evs => contentAfter path (if p = path then content.map (· ++ [b]) else content) evs
  | .opened _ :: evs => contentAfter path content evs
  | .message _ :: evs => contentAfter path content evs

/-- There is no such file, or it cannot be opened. -/
def Missing {σ : Type} (os : OS σ) (path : String) : Prop := ∃ msg, os.openFile path = .error msg

/-- The file has the entries `es`; how it ends is said by `E` and `fe` (see `DataFile`). -/
def Holds {σ : Type} (os : OS σ) (fuel : Nat) (path : String) (E : IOErr) (es : List FileEntry) (fe : FileEnd) : Prop :=
  ∃ rd, os.openFile path = .ok rd ∧ DataFile os.read rd E fuel es fe

/-- The error names the first file that is not complete, and is the error of this file. -/
def FirstBad (E1 E2 E3 : IOErr) (fe1 fe2 fe3 : FileEnd) (e : GenErr) : Prop :=
  (¬ Complete E1 fe1 ∧ ∃ x, e = .reading "GraphemeBreakProperty.txt" x ∧ FileError E1 fe1 x) ∨
  (Complete E1 fe1 ∧ ¬ Complete E2 fe2 ∧ ∃ x, e = .reading "emoji-data.txt" x ∧ FileError E2 fe2 x) ∨
  (Complete E1 fe1 ∧ Complete E2 fe2 ∧ ¬ Complete E3 fe3 ∧ ∃ x, e = .reading "DerivedCoreProperties.txt" x ∧ FileError E3 fe3 x)

/-- go/format changes the layout only. -/
def KeepsTokens (formatSource : GoString → Except String GoString) : Prop :=
  ∀ buf src, formatSource buf = .ok src → goTokens src = goTokens buf

end Textseg.Spec
