import Verif.Spec.Streaming
import Verif.Spec.UCDFormat
import Verif.Spec.GenTable
import Verif.Model.UCDParse
/-!
# Specification: data files given to the generator
-/

namespace Textseg.Spec

/-- The bounds of the entry are Go runes, and so is the number after the last one. -/
def SmallEntry (x : FileEntry) : Prop := x.1 < 2 ^ 31 ∧ x.2.1 + 1 < 2 ^ 31

/-- The reader `read` in state `rd` delivers, in whatever portions, a file `D`; `lines` are its lines. Either none of them is
too long and then the reader reports `E`; or `E` is the error for a line that is too long, and `lines` are the lines before
the first such line. -/
def FileLines {σ : Type} (read : Reader σ) (rd : σ) (E : IOErr) (D : List UInt8) (lines : List (List UInt8)) : Prop :=
  (Delivers read E rd D 0 ∧ FileOf lines D ∧ ShortLines D) ∨
  ((∃ E', Delivers read E' rd D 0) ∧ LongLineAfter 65537 lines D ∧ E = .tooLong)

/-- The lines of the file mean the entries `es`, up to the first malformed line if `fe = .malformed line`; and if there is none,
reading it ends with `E`. `fuel` is more than the length of the file (it bounds the loops of the model). -/
structure DataFile {σ : Type} (read : Reader σ) (rd : σ) (E : IOErr) (fuel : Nat) (es : List FileEntry) (fe : FileEnd) : Prop where
  file : ∃ D lines, FileLines read rd E D lines ∧ LinesMean lines es fe ∧ D.length < fuel
  small : ∀ x ∈ es, SmallEntry x

/-- A complete, well-formed data file. -/
def Complete (E : IOErr) (fe : FileEnd) : Prop := fe = .complete ∧ E = .eof

/-- The error of a file that is not complete: that about the malformed line, or that of the reader (`E`; for an overlong line
`bufio.ErrTooLong`). -/
def FileError (E : IOErr) : FileEnd → ParseErr → Prop
  | .malformed line, x => (∃ y, x = .invalidStart y ∧ BadStart line y) ∨ ∃ y, x = .invalidEnd y ∧ BadEnd line y
  | .complete, x => x = .io E

end Textseg.Spec
