import Verif.Proofs.ConformanceTest
/-!
# The conformance tests of the repository test conformance

`runTests subtestWhole` is `TestScanGraphemeClusters`, `runTests subtestPartial` is `TestScanGraphemeClusters_partial`: the
outcomes of the subtests, and whether the test came to the end of the file of test cases.
-/

namespace Textseg.Props
open Textseg Spec Scanner

/-- C52: on any file of test cases (without overlong lines), delivered in any way: the outcome of each subtest says whether
the segments of its line are the segmentation that UAX #29 demands, if the text of each line has at most 2049 bytes; and the
test comes to the end of the file exactly if there is no malformed line and reading does not fail. -/
theorem C52_outcomes {σ : Type} (read : Reader σ) (E : IOErr) (rd : σ) (D : List UInt8) (hd : Delivers read E rd D 0)
    (lines : List (List UInt8)) (hf : FileOf lines D) (hshort : ShortLines D)
    (tests : List (List (List Char))) (bad : Option (List UInt8)) (hm : TestFileMeans lines tests bad)
    (hn : ∀ segs ∈ tests, (utf8 segs.flatten).length ≤ 2049)
    (subtest : TestDataEntry → Go Bool) (hsub : subtest = subtestWhole ∨ subtest = subtestPartial)
    (fuel : Nat) (hfu : D.length < fuel) :
    ∃ outs complete, runTests subtest read fuel (newScanner rd 0) = .ok (outs, complete) ∧
      ForallTwo (fun b segs => b = true ↔ IsSegmentation CharBoundary segs.flatten segs) outs tests ∧
      (complete = true ↔ bad = none ∧ E = .eof) := by
  obtain ⟨ents, h1, h2, h3⟩ := C36_every_file read E rd D hd lines hf hshort tests bad hm fuel hfu
  obtain ⟨outs, h4, h5⟩ := outcomes_spec (subtest := subtest) (by
    rcases hsub with rfl | rfl
    · exact subtestWhole_spec
    · exact subtestPartial_spec) tests ents h2 h3 hn
  refine ⟨outs, _, runTests_spec fuel h1 h4, h5, ?_⟩
  rw [beq_iff_eq]
  cases bad with
  | none => simp
  | some t => simp

/-- C52: so both tests pass exactly if the file is read to its end, has no malformed line, and every line of it has the
segmentation that UAX #29 demands. -/
theorem C52_passes_iff {σ : Type} (read : Reader σ) (E : IOErr) (rd : σ) (D : List UInt8) (hd : Delivers read E rd D 0)
    (lines : List (List UInt8)) (hf : FileOf lines D) (hshort : ShortLines D)
    (tests : List (List (List Char))) (bad : Option (List UInt8)) (hm : TestFileMeans lines tests bad)
    (hn : ∀ segs ∈ tests, (utf8 segs.flatten).length ≤ 2049)
    (subtest : TestDataEntry → Go Bool) (hsub : subtest = subtestWhole ∨ subtest = subtestPartial)
    (fuel : Nat) (hfu : D.length < fuel) :
    ∃ r, runTests subtest read fuel (newScanner rd 0) = .ok r ∧
      (passes r = true ↔ bad = none ∧ E = .eof ∧ ∀ segs ∈ tests, IsSegmentation CharBoundary segs.flatten segs) := by
  obtain ⟨outs, complete, h1, h2, h3⟩ := C52_outcomes read E rd D hd lines hf hshort tests bad hm hn subtest hsub fuel hfu
  refine ⟨_, h1, ?_⟩
  rw [passes, Bool.and_eq_true, h3, forallTwo_all h2, and_assoc]

/-- C52: a file with an overlong line does not pass. -/
theorem C52_overlong_fails {σ : Type} (read : Reader σ) (E : IOErr) (rd : σ) (D : List UInt8) (hd : Delivers read E rd D 0)
    (lines : List (List UInt8)) (hl : LongLineAfter 65537 lines D)
    (tests : List (List (List Char))) (bad : Option (List UInt8)) (hm : TestFileMeans lines tests bad)
    (hn : ∀ segs ∈ tests, (utf8 segs.flatten).length ≤ 2049)
    (subtest : TestDataEntry → Go Bool) (hsub : subtest = subtestWhole ∨ subtest = subtestPartial)
    (fuel : Nat) (hfu : D.length < fuel) :
    ∃ r, runTests subtest read fuel (newScanner rd 0) = .ok r ∧ passes r = false := by
  obtain ⟨ents, h1, h2, h3⟩ := C45_overlong_test_line read E rd D hd lines hl tests bad hm fuel hfu
  obtain ⟨outs, h4, _⟩ := outcomes_spec (subtest := subtest) (by
    rcases hsub with rfl | rfl
    · exact subtestWhole_spec
    · exact subtestPartial_spec) tests ents h2 h3 hn
  refine ⟨_, runTests_spec fuel h1 h4, ?_⟩
  rw [passes]
  cases bad with
  | none => rfl
  | some t => rfl

/-- C52: the bound of 2049 bytes is needed: with a longer text a subtest can fail although the segments of its line are
right, because the slices that the test keeps are overwritten (see C38). -/
theorem C52_false_alarm : ∃ segs : List (List Char), IsSegmentation CharBoundary segs.flatten segs ∧
    (utf8 segs.flatten).length = 2050 ∧
    subtestWhole { Input := utf8 segs.flatten, WantSegments := segs.map utf8 } = .ok false := by
  refine ⟨[['a'], '\u00E9' :: List.replicate 1023 '\u0301', ['b']], ?_, by decide +kernel, by decide +kernel⟩
  have h : tokens (utf8 [['a'], '\u00E9' :: List.replicate 1023 '\u0301', ['b']].flatten) =
      .ok ([['a'], '\u00E9' :: List.replicate 1023 '\u0301', ['b']].map utf8) := by decide +kernel
  exact (wanted_iff h).mp rfl

/-- A file with a right and a wrong line (CR and LF separated): the second subtest fails. -/
example : runTests subtestWhole dripReader 100 (newScanner (str "÷ 0061 × 0301 ÷ 000A ÷ # x\n÷ 000D ÷ 000A ÷") 0) =
    .ok ([true, false], true) := by decide +kernel
example : runTests subtestPartial dripReader 100 (newScanner (str "÷ 0061 × 0301 ÷ 000A ÷ # x\n÷ 000D ÷ 000A ÷") 0) =
    .ok ([true, false], true) := by decide +kernel

/-- The hypotheses of C52 hold for this file. -/
example : ∃ r, runTests subtestPartial bytesReader 100 (newScanner (str "÷ D800 × -1 ÷ ÷ +41\n÷ 0041 × 00G1 ÷") 0) = .ok r ∧
    passes r = false := by
  obtain ⟨r, h1, h2⟩ := C52_passes_iff bytesReader .eof _ _ (bytesReader_delivers (str "÷ D800 × -1 ÷ ÷ +41\n÷ 0041 × 00G1 ÷"))
    [str "÷ D800 × -1 ÷ ÷ +41", str "÷ 0041 × 00G1 ÷"]
    (.lf (str "÷ D800 × -1 ÷ ÷ +41") _ _ (by decide +kernel) (by decide +kernel)
      (.last (str "÷ 0041 × 00G1 ÷") (by decide +kernel) (by decide +kernel) (by decide +kernel)))
    (shortLines_of_length (by decide +kernel)) _ _ (.test _ _ _ _ _ exampleOddLine (.bad _ _ _ exampleBadLine))
    (by intro segs h; rw [List.mem_singleton] at h; rw [h]; decide +kernel)
    subtestPartial (Or.inr rfl) 100 (by decide +kernel)
  refine ⟨r, h1, ?_⟩
  cases hp : passes r
  · rfl
  · exact absurd (h2.mp hp).1 (by simp)

end Textseg.Props
