import Verif.Proofs.DataFiles
import Verif.Proofs.TestFile
import Verif.Props.GenPrint
import Verif.Props.ConformanceTest
/-!
# C33, C52: the committed files

`Text.breakProperty`, `Text.emojiData`, `Text.derivedCore` and `Text.tableText` are the lines of the files
GraphemeBreakProperty.txt, emoji-data.txt, DerivedCoreProperties.txt and property_table_raw.go in /repo, literally, and
`Text.breakTest` those of GraphemeBreakTest.txt. `textFile` (`Verif/Model/Text.lean`) is the sequence of their bytes.
-/

namespace Textseg.Gen
open Textseg Spec Scanner

variable {σ : Type} {read : Reader σ} {rd1 rd2 rd3 : σ}

/-- **C33.** Given the bytes of the three data files in the repository, delivered in whatever portions, the generator prints a
source that has exactly the tokens of the committed property_table_raw.go. -/
theorem C33_committed_files (h1 : Delivers read .eof rd1 (textFile Text.breakProperty.flatten) 0)
    (h2 : Delivers read .eof rd2 (textFile Text.emojiData.flatten) 0)
    (h3 : Delivers read .eof rd3 (textFile Text.derivedCore.flatten) 0) (fuel : Nat)
    (hf : (textFile Text.breakProperty.flatten).length + (textFile Text.emojiData.flatten).length +
      (textFile Text.derivedCore.flatten).length < fuel) :
    ∃ src, generateMain read fuel rd1 rd2 rd3 = .ok (.ok src) ∧ (goTokens src).isSome ∧
      goTokens src = goTokens (textFile Text.tableText.flatten) := by
  obtain ⟨es1, es2, es3, hs, r1, r2, r3⟩ := committed_read
  exact C53_committed_source
    ⟨⟨_, _, .inl ⟨h1, textFile_fileOf (fun n hn => ⟨(r1.lines n hn).1, (r1.lines n hn).2.1⟩), textFile_shortLines r1.lines⟩, r1.mean, by omega⟩, r1.small⟩
    ⟨⟨_, _, .inl ⟨h2, textFile_fileOf (fun n hn => ⟨(r2.lines n hn).1, (r2.lines n hn).2.1⟩), textFile_shortLines r2.lines⟩, r2.mean, by omega⟩, r2.small⟩
    ⟨⟨_, _, .inl ⟨h3, textFile_fileOf (fun n hn => ⟨(r3.lines n hn).1, (r3.lines n hn).2.1⟩), textFile_shortLines r3.lines⟩, r3.mean, by omega⟩, r3.small⟩ hs

/-- **C33.** The entries of `Verif/Spec/UCDData.lean`, with which lookups are compared in C23, are those of the data files in
the repository: the lines of these files mean lists of entries of which the relevant ones are the given ones. -/
theorem C33_data_files : ∃ es1 es2 es3, ShippedEntries es1 es2 es3 ∧
    LinesMean (Text.breakProperty.flatten.map textLine) es1 .complete ∧
    LinesMean (Text.emojiData.flatten.map textLine) es2 .complete ∧
    LinesMean (Text.derivedCore.flatten.map textLine) es3 .complete := by
  obtain ⟨es1, es2, es3, hs, r1, r2, r3⟩ := committed_read
  exact ⟨es1, es2, es3, hs, r1.mean, r2.mean, r3.mean⟩

theorem pictListed_filter (es : List FileEntry) (c : Nat) : pictListed (es.filter pictEntry) c = pictListed es c := by
  unfold pictListed
  induction es with
  | nil => rfl
  | cons x es ih =>
    rw [List.filter_cons, List.any_cons]
    split
    · rw [List.any_cons, ih]
    · rename_i h
      have h : pictEntry x = false := by simpa using h
      unfold pictEntry at h
      rw [h, Bool.and_false, Bool.false_or, ih]

theorem incbListed_filter (es : List FileEntry) (c : Nat) : incbListed (es.filter incbEntry) c = incbListed es c := by
  unfold incbListed
  rw [List.filter_filter]
  congr 2
  funext x
  unfold incbEntry
  cases x.2.2.head? == some (ascii "InCB") <;> simp

/-- **C23.** So `LookupFirstChar` gives every character exactly the properties that the data files in the repository list for it:
the code 4 if it is Extended_Pictographic, else that of its Grapheme_Cluster_Break name, together with that of its
Indic_Conjunct_Break name (`listedProps`). -/
theorem C23_committed_files : ∃ es1 es2 es3, LinesMean (Text.breakProperty.flatten.map textLine) es1 .complete ∧
    LinesMean (Text.emojiData.flatten.map textLine) es2 .complete ∧
    LinesMean (Text.derivedCore.flatten.map textLine) es3 .complete ∧
    ∀ (c : Char) (rest : List UInt8), LookupFirstChar (String.utf8EncodeChar c ++ rest) =
      .ok (listedProps LookupGCBProperty LookupInCBProperty es1 es2 es3 c.val.toNat, (String.utf8EncodeChar c).length) := by
  obtain ⟨es1, es2, es3, hs, r1, r2, r3⟩ := committed_read
  refine ⟨es1, es2, es3, r1.mean, r2.mean, r3.mean, fun c rest => ?_⟩
  have e : listedProps LookupGCBProperty LookupInCBProperty es1 es2 es3 c.val.toNat = ucdByte c.val.toNat := by
    have hr := relevant_of hs
    have := listed_eq hr c.val.toNat
    rw [← this]
    unfold listedProps
    rw [pictListed_filter, incbListed_filter]
  rw [e, lookup_seq (isSeq_encode c) rest, seqProps_encode]
  rfl

/-- A reader that delivers the files. -/
example : ∃ fuel src, generateMain bytesReader fuel (textFile Text.breakProperty.flatten) (textFile Text.emojiData.flatten)
    (textFile Text.derivedCore.flatten) = .ok (.ok src) := by
  obtain ⟨src, h, _⟩ := C33_committed_files (bytesReader_delivers _) (bytesReader_delivers _) (bytesReader_delivers _) _ (Nat.lt_succ_self _)
  exact ⟨_, src, h⟩

/-- **C52.** The file GraphemeBreakTest.txt in the repository contains 766 tests, and all of them give the segmentation that
UAX #29, as stated in `Verif/Spec/UAX29.lean`, demands. (So this is also a test of that specification.) -/
theorem C52_official_tests : ∃ tests, TestLinesMean (Text.breakTest.flatten.map textLine) tests ∧ tests.length = 766 ∧
    ∀ segs ∈ tests, IsSegmentation CharBoundary segs.flatten segs := by
  obtain ⟨tests, h1, h2, h3, _⟩ := testsN_sound tests_checked
  exact ⟨tests, h2, h1, fun segs hs => (h3 segs hs).1⟩

/-- **C52.** Both conformance tests of the repository pass with that file, in whatever portions it is read. -/
theorem C52_committed_tests_pass {rd : σ} (hd : Delivers read .eof rd (textFile Text.breakTest.flatten) 0)
    (subtest : TestDataEntry → Go Bool) (hsub : subtest = subtestWhole ∨ subtest = subtestPartial) (fuel : Nat)
    (hf : (textFile Text.breakTest.flatten).length < fuel) :
    ∃ outs, runTests subtest read fuel (newScanner rd 0) = .ok (outs, true) ∧ outs = List.replicate 766 true := by
  obtain ⟨tests, h1, h2, h3, h4⟩ := testsN_sound tests_checked
  have hfile : FileOf (Text.breakTest.flatten.map textLine) (textFile Text.breakTest.flatten) :=
    textFile_fileOf fun n hn => ⟨(h4 n hn).1, (h4 n hn).2.1⟩
  obtain ⟨ents, k1, k2, k3⟩ := Props.C36_test_data read .eof rd _ hd _ hfile (shortLines_of_lines hfile (by
    intro l hl
    obtain ⟨n, hn, rfl⟩ := List.mem_map.mp hl
    have := (h4 n hn).2.2
    omega)) tests h2 fuel hf
  obtain ⟨outs, k4, k5⟩ := outcomes_spec (subtest := subtest) (by
    rcases hsub with rfl | rfl
    · exact subtestWhole_spec
    · exact subtestPartial_spec) tests ents k2 k3 fun segs hs => (h3 segs hs).2
  refine ⟨outs, runTests_spec fuel k1 k4, ?_⟩
  have hall : ∀ b ∈ outs, b = true := by
    have := (forallTwo_all k5).mpr fun segs hs => (h3 segs hs).1
    intro b hb
    exact List.all_eq_true.mp this b hb
  have hlen : outs.length = tests.length := by
    clear hall h1 h2 h3 k2 k3 k4
    induction k5 with
    | nil => rfl
    | cons _ _ _ _ _ _ ih => rw [List.length_cons, List.length_cons, ih]
  rw [← h1, ← hlen]
  exact List.eq_replicate_of_mem hall

end Textseg.Gen
