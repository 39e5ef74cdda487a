import Verif.Proofs.MemTest5
import Verif.Props.UcdSource
import Verif.Props.Committed
/-!
# C70: the source text of the parser of GraphemeBreakTest.txt, executed according to the language specification

The functions of `Model/UCDParse.lean`, which C36, C43, C45 and C52 are about, were written down by hand after
ucdparse/testdata_scan.go. Here the text of that file is parsed, and the syntax tree is executed by the interpreter of C67. `bufio.Scanner` is
not executed: what its methods return is what its model says (`Scans`); the bytes of a line are overwritten when the next one is read.
-/

namespace Textseg.Props
open Textseg Spec GoMem

section
variable (prog : Program) (hp : parseMem gentableSources = some prog) (m : Machine) (hW : 32 ≤ m.W)
include hp hW

/-- **C70.** For every reader: a caller that makes a Scanner with `NewTestDataScanner`, calls `NextEntry` until it returns an error, and only
then looks at the bytes of the entries, sees what the model says - so no entry depends on the buffer of the Scanner, and no two of them
share memory that one of them changes - and the error that the model says. If the model says that `bufio.Scanner` panics, then there is
this panic; there is no other. -/
theorem C70_entries {σ : Type} (read : Reader σ) (rd : σ) (id : Nat) (hS : Scans m id 0 read (newScanner rd 0)) (fuel : Nat) :
    match allTestEntries read fuel (newScanner rd 0) with
    | .ok (es, e) => TestSees prog m id (es.map fun e => testSeen e.Input e.WantSegments) (TestError m e)
    | .error p => p ≠ .outOfFuel → TestPanics prog m id p := by
  cases is_gentable hp
  exact TD.testSession_spec m hW id read fuel _ hS

/-- What is seen of a test with these segments. -/
def seenOfTest (segs : List (List Char)) : TestSeen := testSeen (utf8 segs.flatten) (segs.map utf8)

omit hp hW in
theorem seen_of_maps : ∀ {ents : List TestDataEntry} {tests : List (List (List Char))},
    ents.map TestDataEntry.Input = tests.map (fun segs => utf8 segs.flatten) →
    ents.map TestDataEntry.WantSegments = tests.map (fun segs => segs.map utf8) →
    ents.map (fun e => testSeen e.Input e.WantSegments) = tests.map seenOfTest
  | [], [], _, _ => rfl
  | e :: ents, t :: tests, h1, h2 => by
    rw [List.map_cons, List.map_cons] at h1 h2
    obtain ⟨a1, b1⟩ := List.cons.inj h1
    obtain ⟨a2, b2⟩ := List.cons.inj h2
    rw [List.map_cons, List.map_cons, seen_of_maps b1 b2, seenOfTest, a1, a2]
  | [], _ :: _, h, _ => by cases h
  | _ :: _, [], h, _ => by cases h

/-- **C70.** For every file without overlong lines, and every reader that delivers it: executing the source text shows the tests up to the
first malformed line, and then the result of `fmt.Errorf` with what is malformed in it; or all tests, if there is no malformed line,
and then the end of the file (or the error of the reader). -/
theorem C70_every_file {σ : Type} (read : Reader σ) (rd : σ) (id : Nat) (hS : Scans m id 0 read (newScanner rd 0)) (E : IOErr) (D : List UInt8)
    (hd : Delivers read E rd D 0) (lines : List (List UInt8)) (hf : FileOf lines D) (hshort : ShortLines D)
    (tests : List (List (List Char))) (bad : Option (List UInt8)) (hm : TestFileMeans lines tests bad) :
    TestSees prog m id (tests.map seenOfTest) fun err => match bad with
      | none => err = .io E
      | some s => err = .text (m.sprintf [.str (str "invalid character reference %q"), .str s]) := by
  obtain ⟨ents, h1, h2, h3⟩ := C36_every_file read E rd D hd lines hf hshort tests bad hm (D.length + 1) (by omega)
  have := C70_entries prog hp m hW read rd id hS (D.length + 1)
  rw [h1] at this
  simp only [seen_of_maps h2 h3] at this
  cases bad <;> exact this

/-- **C70.** If a line is overlong, the tests before it are shown, and then that error of `bufio.Scanner` (unless there is a malformed line
before). -/
theorem C70_overlong {σ : Type} (read : Reader σ) (rd : σ) (id : Nat) (hS : Scans m id 0 read (newScanner rd 0)) (E : IOErr) (D : List UInt8)
    (hd : Delivers read E rd D 0) (lines : List (List UInt8)) (hl : LongLineAfter 65537 lines D)
    (tests : List (List (List Char))) (bad : Option (List UInt8)) (hm : TestFileMeans lines tests bad) :
    TestSees prog m id (tests.map seenOfTest) fun err => match bad with
      | none => err = .io .tooLong
      | some s => err = .text (m.sprintf [.str (str "invalid character reference %q"), .str s]) := by
  obtain ⟨ents, h1, h2, h3⟩ := C45_overlong_test_line read E rd D hd lines hl tests bad hm (D.length + 1) (by omega)
  have := C70_entries prog hp m hW read rd id hS (D.length + 1)
  rw [h1] at this
  simp only [seen_of_maps h2 h3] at this
  cases bad <;> exact this

/-- **C70.** For the file GraphemeBreakTest.txt in the repository, in whatever portions it is read: executing the source text shows its
766 tests, each of them the segmentation of its text that UAX #29 demands, and then the end of the file. -/
theorem C70_committed {σ : Type} (read : Reader σ) (rd : σ) (id : Nat) (hS : Scans m id 0 read (newScanner rd 0))
    (hd : Delivers read .eof rd (textFile Text.breakTest.flatten) 0) :
    ∃ tests, TestLinesMean (Text.breakTest.flatten.map textLine) tests ∧ tests.length = 766 ∧
      (∀ segs ∈ tests, IsSegmentation CharBoundary segs.flatten segs) ∧ TestSees prog m id (tests.map seenOfTest) (· = .io .eof) := by
  obtain ⟨tests, h1, h2, h3, h4⟩ := Gen.testsN_sound Gen.tests_checked
  have hfile : FileOf (Text.breakTest.flatten.map textLine) (textFile Text.breakTest.flatten) :=
    Gen.textFile_fileOf fun n hn => ⟨(h4 n hn).1, (h4 n hn).2.1⟩
  obtain ⟨fuel, hfuel⟩ : ∃ fuel, (textFile Text.breakTest.flatten).length < fuel := ⟨_, Nat.lt_succ_self _⟩
  obtain ⟨ents, k1, k2, k3⟩ := C36_test_data read .eof rd _ hd _ hfile (shortLines_of_lines hfile (by
    intro l hl
    obtain ⟨n, hn, rfl⟩ := List.mem_map.mp hl
    have := (h4 n hn).2.2
    omega)) tests h2 fuel hfuel
  have := C70_entries prog hp m hW read rd id hS fuel
  rw [k1] at this
  simp only [seen_of_maps k2 k3] at this
  exact ⟨tests, h2, h1, fun segs hs => (h3 segs hs).1, this⟩
end

/-- The hypotheses of C70 are met: the file of the repository, delivered one byte at a time, on a machine with 64-bit `int`. -/
example : ∃ tests : List (List (List Char)), tests.length = 766 ∧
    TestSees gentable (machineFor (exampleMachine 64 fun a b => 2 * a + b) dripReader (textFile Text.breakTest.flatten)) 0 (tests.map seenOfTest) (· = .io .eof) := by
  obtain ⟨tests, -, h1, -, h2⟩ := C70_committed gentable C67_parsed (machineFor (exampleMachine 64 fun a b => 2 * a + b) dripReader (textFile Text.breakTest.flatten))
    (by decide) dripReader _ 0 (scans_machineFor _ _ _ 0) (dripReader_delivers _)
  exact ⟨tests, h1, h2⟩

end Textseg.Props
