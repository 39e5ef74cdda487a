import Verif.Proofs.MemUcd4
import Verif.Props.GenSource
import Verif.Props.UCDParse
/-!
# C68: the source text of the parser of the Unicode data files, executed according to the language specification

The functions of `Model/UCDParse.lean`, which C34, C35 and C42 are about, were written down by hand after ucdparse/ucd_scan.go. Here the
text of that file is parsed, and the syntax tree is executed by the interpreter of C67. `bufio.Scanner` is not executed: what its
methods return is what its model (`Model/BufioScanner.lean`) says (`Scans`); the bytes of a line are overwritten when the next one is read.
-/

namespace Textseg.Props
open Textseg Spec GoMem

/-- The machine on which all readers are `read`, in state `rd`. -/
def machineFor {σ : Type} (m : Machine) (read : Reader σ) (rd : σ) : Machine :=
  { m with
    lines := fun _ k => (scanResult read (newScanner rd 0) k).map fun r => if r.1 then some (r.2.Bytes.getD []) else none
    scanErr := fun _ k => match scanResult read (newScanner rd 0) (k - 1) with
      | .ok r => r.2.Err
      | .error _ => none }

/-- Every reader can be the one of a machine. -/
theorem scans_machineFor {σ : Type} (m : Machine) (read : Reader σ) (rd : σ) (id : Nat) :
    Scans (machineFor m read rd) id 0 read (newScanner rd 0) where
  lines := fun k => by rw [Nat.zero_add]; rfl
  err := fun k r hr => by
    rw [Nat.zero_add]
    show (match scanResult read (newScanner rd 0) (k + 1 - 1) with
      | .ok r => r.2.Err
      | .error _ => none) = _
    rw [Nat.add_sub_cancel, hr]

section
variable (prog : Program) (hp : parseMem gentableSources = some prog) (m : Machine)
include hp

/-- **C68.** For every reader: a caller that makes a Scanner with `NewScanner`, calls `NextEntry` until it returns an error, and looks at
the `Start`, `End`, `FirstField()` and `AllFields()` of each entry, sees what the model says, and then the error that the model says. If the model
says that `bufio.Scanner` panics, then there is this panic. -/
theorem C68_entries {σ : Type} (read : Reader σ) (rd : σ) (id : Nat) (hS : Scans m id 0 read (newScanner rd 0)) (fuel : Nat) :
    match allEntries read fuel (newScanner rd 0) with
    | .ok (es, e) => ∃ ss, ForallTwo SeenOf ss es ∧ UcdSees prog m id ss (parseError m e)
    | .error p => p ≠ .outOfFuel → UcdPanics prog m id p := by
  cases is_gentable hp
  exact ucdSession_spec m id read fuel _ hS

/-- What is seen of the range from `x.1` to `x.2.1` (inclusive) with the fields `x.2.2`. -/
structure SeenFor (s : Seen) (x : Nat × Nat × List (List UInt8)) : Prop where
  start : x.1 < 2 ^ 31 → s.Start.toInt = x.1
  stop : x.2.1 + 1 < 2 ^ 31 → s.End.toInt = x.2.1 + 1
  all : s.all = x.2.2
  first : some s.first = x.2.2.head?

omit hp in
theorem seenFor_of {ss : List Seen} {es : List Entry} {xs : List (Nat × Nat × List (List UInt8))} (h : ForallTwo SeenOf ss es) :
    ForallTwo EntryFor es xs → ForallTwo SeenFor ss xs := by
  induction h generalizing xs with
  | nil => intro h; cases h; exact .nil
  | cons s e ss es h _ ih =>
    intro h'
    cases h' with
    | cons _ x _ xs h1 h2 =>
      refine .cons _ _ _ _ ⟨?_, ?_, ?_, ?_⟩ (ih h2)
      · rw [h.start]; exact h1.start
      · rw [h.stop]; exact h1.stop
      · have := h.all
        rw [h1.all] at this
        exact (Except.ok.inj this).symm
      · rw [h.first]; exact h1.first

/-- **C68.** For every file all of whose lines are data lines or lines to be ignored, and every reader that delivers it: executing the
source text shows exactly the entries of the data lines, in order, and then the end of the file (or the error of the reader). -/
theorem C68_file {σ : Type} (read : Reader σ) (rd : σ) (id : Nat) (hS : Scans m id 0 read (newScanner rd 0)) (E : IOErr) (D : List UInt8)
    (hd : Delivers read E rd D 0) (lines : List (List UInt8)) (hf : FileOf lines D) (hshort : ShortLines D)
    (es : List (Nat × Nat × List (List UInt8))) (hm : LinesMean lines es .complete) :
    ∃ ss, ForallTwo SeenFor ss es ∧ UcdSees prog m id ss (.io E) := by
  obtain ⟨ents, h1, h2⟩ := C34_file read E rd D hd lines hf hshort es hm (D.length + 1) (by omega)
  have := C68_entries prog hp m read rd id hS (D.length + 1)
  rw [h1] at this
  obtain ⟨ss, h3, h4⟩ := this
  exact ⟨ss, seenFor_of h3 h2, h4⟩

/-- **C68.** At the first malformed line, after the entries of the lines before, there is an error about it: about what stands for the start
of the range in this line, or (if that is a number) for its end. -/
theorem C68_malformed {σ : Type} (read : Reader σ) (rd : σ) (id : Nat) (hS : Scans m id 0 read (newScanner rd 0)) (E : IOErr) (D : List UInt8)
    (hd : Delivers read E rd D 0) (lines : List (List UInt8)) (hf : FileOf lines D) (hshort : ShortLines D)
    (es : List (Nat × Nat × List (List UInt8))) (bad : List UInt8) (hm : LinesMean lines es (.malformed bad)) :
    ∃ ss e, ForallTwo SeenFor ss es ∧ UcdSees prog m id ss (parseError m e) ∧
      ((∃ x, e = .invalidStart x ∧ BadStart bad x) ∨ ∃ x, e = .invalidEnd x ∧ BadEnd bad x) := by
  obtain ⟨ents, err, h1, h2, h3⟩ := C35_malformed_range read E rd D hd lines hf hshort es bad hm (D.length + 1) (by omega)
  have := C68_entries prog hp m read rd id hS (D.length + 1)
  rw [h1] at this
  obtain ⟨ss, h4, h5⟩ := this
  exact ⟨ss, err, seenFor_of h4 h2, h5, h3⟩
end

/-- The hypotheses of C68 are met: a file with comments, a data line and a malformed line, delivered one byte at a time. -/
example : ∃ ss e, ForallTwo SeenFor ss [(0x41, 0x5A, [str "Foo Bar", str "b"])] ∧
    UcdSees gentable (machineFor (exampleMachine 64 fun a b => 2 * a + b) dripReader exampleFile) 0 ss
      (parseError (machineFor (exampleMachine 64 fun a b => 2 * a + b) dripReader exampleFile) e) ∧
    ((∃ x, e = .invalidStart x ∧ BadStart (str "zz ; x") x) ∨ ∃ x, e = .invalidEnd x ∧ BadEnd (str "zz ; x") x) :=
  C68_malformed gentable C67_parsed _ dripReader exampleFile 0 (scans_machineFor _ _ _ 0) .eof exampleFile (dripReader_delivers _)
    _ exampleFile_lines (shortLines_of_length (by decide +kernel)) _ _ exampleFile_mean

end Textseg.Props
