import Verif.Proofs.TestDataParse
import Verif.Proofs.TestLine
import Verif.Proofs.Readers
/-!
# The parsers of the Unicode data files

`allEntries read fuel (newScanner rd 0)` is the loop that calls `NextEntry` until it returns an error, on a `Scanner` made
by `NewScanner` over the reader `read` in state `rd`.
-/

namespace Textseg.Props
open Textseg Spec Scanner

/-- The entry that stands for the range from `x.1` to `x.2.1` (inclusive) with the fields `x.2.2`. The bounds are Go runes
(32 bits, signed), half-open. -/
structure EntryFor (e : Entry) (x : Nat × Nat × List (List UInt8)) : Prop where
  start : x.1 < 2 ^ 31 → e.Start.toInt = x.1
  stop : x.2.1 + 1 < 2 ^ 31 → e.End.toInt = x.2.1 + 1
  all : allFields e.Fields = .ok x.2.2
  first : some (firstString e.Fields) = x.2.2.head?

theorem toRune_toInt {n : Nat} (h : n < 2 ^ 31) : (toRune (n : Int)).toInt = n := by
  unfold toRune
  exact Int32.toInt_ofInt_of_le (by omega) (by omega)

theorem entryFor_of {e : Entry} {x : Nat × Nat × List (List UInt8)} (h : EntryIs e x) : EntryFor e x := by
  refine ⟨fun hl => ?_, fun hl => ?_, h.all, h.first⟩
  · rw [h.start, toRune_toInt hl]
  · have e1 : toRune (x.2.1 : Int) + 1 = toRune ((x.2.1 + 1 : Nat) : Int) := by
      apply Int32.toInt_inj.mp
      rw [toRune_toInt hl, Int32.toInt_add, toRune_toInt (by omega)]
      show Int.bmod ((x.2.1 : Int) + 1) _ = _
      rw [Int.bmod_eq_of_le (by omega) (by omega)]
      omega
    rw [h.stop, e1, toRune_toInt hl]
    omega

theorem entriesFor_of {es : List Entry} {xs : List (Nat × Nat × List (List UInt8))} (h : ForallTwo EntryIs es xs) :
    ForallTwo EntryFor es xs := by
  induction h with
  | nil => exact .nil
  | cons a b as bs h _ ih => exact .cons _ _ _ _ (entryFor_of h) ih

/-- C34: a file all of whose lines are data lines or lines to be ignored gives exactly the entries of its data lines, in
order, and then the end of the file (or the error of the reader). The reader delivers the file in any way. (For files with overlong lines, see C45.) -/
theorem C34_file {σ : Type} (read : Reader σ) (E : IOErr) (rd : σ) (D : List UInt8) (hd : Delivers read E rd D 0)
    (lines : List (List UInt8)) (hf : FileOf lines D) (hshort : ShortLines D)
    (es : List (Nat × Nat × List (List UInt8))) (hm : LinesMean lines es .complete) (fuel : Nat) (hfu : D.length < fuel) :
    ∃ ents, allEntries read fuel (newScanner rd 0) = .ok (ents, .io E) ∧ ForallTwo EntryFor ents es := by
  have hc := collect_lines hf hd hshort fuel hfu
  obtain ⟨ents, err, h1, h2, h3⟩ := allEntries_of_collect fuel hc hm
  simp only at h3
  subst h3
  exact ⟨ents, h1, entriesFor_of h2⟩

/-- C34: every file consists of lines, and every line is a data line, a line to be ignored or a malformed line; so C34 and
C35 speak about all files without overlong lines. -/
theorem C34_every_file (D : List UInt8) : ∃ lines es fe, FileOf lines D ∧ LinesMean lines es fe := by
  obtain ⟨lines, h⟩ := fileOf_exists D
  obtain ⟨es, fe, h'⟩ := linesMean_exists lines
  exact ⟨lines, es, fe, h, h'⟩

/-- C35: at the first malformed line, after the entries of the lines before, the parser returns an error about what
stands for the start of the range in this line, or (if that is a number) for its end. -/
theorem C35_malformed_range {σ : Type} (read : Reader σ) (E : IOErr) (rd : σ) (D : List UInt8) (hd : Delivers read E rd D 0)
    (lines : List (List UInt8)) (hf : FileOf lines D) (hshort : ShortLines D)
    (es : List (Nat × Nat × List (List UInt8))) (bad : List UInt8) (hm : LinesMean lines es (.malformed bad)) (fuel : Nat) (hfu : D.length < fuel) :
    ∃ ents err, allEntries read fuel (newScanner rd 0) = .ok (ents, err) ∧ ForallTwo EntryFor ents es ∧
      ((∃ x, err = .invalidStart x ∧ BadStart bad x) ∨ ∃ x, err = .invalidEnd x ∧ BadEnd bad x) := by
  have hc := collect_lines hf hd hshort fuel hfu
  obtain ⟨ents, err, h1, h2, h3⟩ := allEntries_of_collect fuel hc hm
  exact ⟨ents, err, h1, entriesFor_of h2, h3⟩

/-- C36: a file of test lines, empty lines and comment lines gives, for each test line, the UTF-8 encoding of the text and
of each of its segments; then the end of the file (or the error of the reader). -/
theorem C36_test_data {σ : Type} (read : Reader σ) (E : IOErr) (rd : σ) (D : List UInt8) (hd : Delivers read E rd D 0)
    (lines : List (List UInt8)) (hf : FileOf lines D) (hshort : ShortLines D)
    (tests : List (List (List Char))) (hm : TestLinesMean lines tests) (fuel : Nat) (hfu : D.length < fuel) :
    ∃ ents, allTestEntries read fuel (newScanner rd 0) = .ok (ents, .io E) ∧
      ents.map TestDataEntry.Input = tests.map (fun segs => utf8 segs.flatten) ∧
      ents.map TestDataEntry.WantSegments = tests.map (fun segs => segs.map utf8) := by
  have hc := collect_lines hf hd hshort fuel hfu
  refine ⟨_, allTestEntries_of_collect fuel hc hm, ?_, ?_⟩
  · rw [List.map_map]; rfl
  · rw [List.map_map]; rfl

/-- C36: every line of any file (without overlong lines) has a meaning, see `Verif/Spec/TestLine.lean`: up to the first line
with something that is neither empty nor a number of 32 bits between two marks, the parser gives for each line the text and
its segments; numbers that are not scalar values become U+FFFD. Then it reports that line, or the end of the file. -/
theorem C36_every_file {σ : Type} (read : Reader σ) (E : IOErr) (rd : σ) (D : List UInt8) (hd : Delivers read E rd D 0)
    (lines : List (List UInt8)) (hf : FileOf lines D) (hshort : ShortLines D)
    (tests : List (List (List Char))) (bad : Option (List UInt8)) (hm : TestFileMeans lines tests bad)
    (fuel : Nat) (hfu : D.length < fuel) :
    ∃ ents, allTestEntries read fuel (newScanner rd 0) = .ok (ents, bad.elim (.io E) .invalidChar) ∧
      ents.map TestDataEntry.Input = tests.map (fun segs => utf8 segs.flatten) ∧
      ents.map TestDataEntry.WantSegments = tests.map (fun segs => segs.map utf8) := by
  have hc := collect_lines hf hd hshort fuel hfu
  have h := allTestEntries_any (fun s hs => errOf_end hs) fuel hc hm
  refine ⟨tests.map fun segs => { Input := utf8 segs.flatten, WantSegments := segs.map utf8 }, h.trans ?_, ?_, ?_⟩
  · cases bad <;> rfl
  · rw [List.map_map]; rfl
  · rw [List.map_map]; rfl

/-- C36: so that theorem speaks about all files without overlong lines. -/
theorem C36_every_line_means (D : List UInt8) : ∃ lines tests bad, FileOf lines D ∧ TestFileMeans lines tests bad := by
  obtain ⟨lines, h⟩ := fileOf_exists D
  obtain ⟨ts, e, h'⟩ := testFile_exists lines
  exact ⟨lines, ts, e, h, h'⟩

/-- C45: if a file has an overlong line, the parser gives the entries of the lines before it and then reports that the line
is too long (unless there is a malformed line before). -/
theorem C45_overlong_line {σ : Type} (read : Reader σ) (E : IOErr) (rd : σ) (D : List UInt8) (hd : Delivers read E rd D 0)
    (lines : List (List UInt8)) (hl : LongLineAfter 65537 lines D)
    (es : List (Nat × Nat × List (List UInt8))) (hm : LinesMean lines es .complete) (fuel : Nat) (hfu : D.length < fuel) :
    ∃ ents, allEntries read fuel (newScanner rd 0) = .ok (ents, .io .tooLong) ∧ ForallTwo EntryFor ents es := by
  obtain ⟨ents, err, h1, h2, h3⟩ := allEntries_of_collect fuel (collect_long hl hd fuel hfu) hm
  simp only at h3
  subst h3
  exact ⟨ents, h1, entriesFor_of h2⟩

/-- C45: the malformed line before is what is reported otherwise. -/
theorem C45_malformed_before_overlong {σ : Type} (read : Reader σ) (E : IOErr) (rd : σ) (D : List UInt8) (hd : Delivers read E rd D 0)
    (lines : List (List UInt8)) (hl : LongLineAfter 65537 lines D)
    (es : List (Nat × Nat × List (List UInt8))) (bad : List UInt8) (hm : LinesMean lines es (.malformed bad)) (fuel : Nat) (hfu : D.length < fuel) :
    ∃ ents err, allEntries read fuel (newScanner rd 0) = .ok (ents, err) ∧ ForallTwo EntryFor ents es ∧
      ((∃ x, err = .invalidStart x ∧ BadStart bad x) ∨ ∃ x, err = .invalidEnd x ∧ BadEnd bad x) := by
  obtain ⟨ents, err, h1, h2, h3⟩ := allEntries_of_collect fuel (collect_long hl hd fuel hfu) hm
  exact ⟨ents, err, h1, entriesFor_of h2, h3⟩

/-- C45: the same for the test data parser. -/
theorem C45_overlong_test_line {σ : Type} (read : Reader σ) (E : IOErr) (rd : σ) (D : List UInt8) (hd : Delivers read E rd D 0)
    (lines : List (List UInt8)) (hl : LongLineAfter 65537 lines D)
    (tests : List (List (List Char))) (bad : Option (List UInt8)) (hm : TestFileMeans lines tests bad)
    (fuel : Nat) (hfu : D.length < fuel) :
    ∃ ents, allTestEntries read fuel (newScanner rd 0) = .ok (ents, bad.elim (.io .tooLong) .invalidChar) ∧
      ents.map TestDataEntry.Input = tests.map (fun segs => utf8 segs.flatten) ∧
      ents.map TestDataEntry.WantSegments = tests.map (fun segs => segs.map utf8) := by
  have h := allTestEntries_any (E := .tooLong) (fun s hs => errOf_end hs) fuel (collect_long hl hd fuel hfu) hm
  refine ⟨tests.map fun segs => { Input := utf8 segs.flatten, WantSegments := segs.map utf8 }, h.trans ?_, ?_, ?_⟩
  · cases bad <;> rfl
  · rw [List.map_map]; rfl
  · rw [List.map_map]; rfl

/-- C45: the only other files are those whose last line has exactly 65536 bytes and no newline at its end. -/
theorem C45_every_file (D : List UInt8) : ShortLines D ∨ (∃ lines, LongLineAfter 65537 lines D) ∨
    ∃ lines head last, D = head ++ last ∧ FileOf lines head ∧ (head = [] ∨ head.getLast? = some newline) ∧ ShortLines head ∧
      newline ∉ last ∧ last.length = 65536 := by
  rcases shortLines_or_long D with h | ⟨lines, head, long, h1, h2, h3, h4, h5, h6⟩
  · exact .inl h
  · right
    by_cases hl : 65537 ≤ long.length
    · exact .inl ⟨lines, head, long, h1, h2, h3, h4, h5, hl⟩
    · rw [List.take_of_length_le (by omega)] at h5
      exact .inr ⟨lines, head, long, h1, h2, h3, h4, h5, by omega⟩

/-- C45: such a line is either treated like any other line or reported as too long (depending on how the reader reports the
end of the file); nothing else can happen. (A CR at its end does not belong to it.) -/
theorem C45_edge {σ : Type} (read : Reader σ) (E : IOErr) (rd : σ) (D : List UInt8) (hd : Delivers read E rd D 0)
    (lines : List (List UInt8)) (head last line : List UInt8) (h1 : D = head ++ last) (h2 : FileOf lines head)
    (h3 : head = [] ∨ head.getLast? = some newline) (h4 : ShortLines head) (h5 : newline ∉ last) (h6 : last.length = 65536)
    (h7 : FileOf [line] last)
    (es es' : List (Nat × Nat × List (List UInt8))) (hm : LinesMean lines es .complete)
    (hm' : LinesMean (lines ++ [line]) es' .complete) (fuel : Nat) (hfu : D.length < fuel) :
    ∃ ents, ForallTwo EntryFor ents es ∧ allEntries read fuel (newScanner rd 0) = .ok (ents, .io .tooLong) ∨
      ForallTwo EntryFor ents es' ∧ allEntries read fuel (newScanner rd 0) = .ok (ents, .io E) := by
  obtain ⟨toks, F, g1, g2⟩ := stream_spec goodSplit_lines read E rd D 0 maxScanTokenSize (by decide) hd
  have hline : dropCR last = line := by
    cases h7 with
    | last _ _ _ h => exact dropCR_of_ne h
    | lastCR _ h => exact dropCR_append _
    | lf _ _ _ _ _ _ => simp at h5
    | crlf _ _ _ _ _ => simp at h5
  rcases streams_edge h2 h3 h4 h5 h6 h1 g1 with ⟨rfl, rfl⟩ | ⟨rfl, rfl⟩
  · obtain ⟨ents, err, k1, k2, k3⟩ := allEntries_of_collect fuel (g2 fuel hfu) hm
    simp only at k3
    subst k3
    exact ⟨ents, .inl ⟨entriesFor_of k2, k1⟩⟩
  · rw [hline] at g2
    obtain ⟨ents, err, k1, k2, k3⟩ := allEntries_of_collect fuel (g2 fuel hfu) hm'
    simp only at k3
    subst k3
    exact ⟨ents, .inr ⟨entriesFor_of k2, k1⟩⟩

/-- What a consumer that is handed the elements of a list one by one, until it says stop, ends up with. -/
def consume {τ α : Type} (yield : τ → α → Bool × τ) : τ → List α → τ
  | t, [] => t
  | t, x :: xs => if (yield t x).1 then consume yield (yield t x).2 xs else (yield t x).2

theorem feed_eq_consume {τ α : Type} (yield : τ → α → Bool × τ) (t : τ) (xs : List α) : feed yield t xs = consume yield t xs := by
  induction xs generalizing t with
  | nil => rfl
  | cons x xs ih =>
    unfold feed consume
    rcases yield t x with ⟨b, t'⟩
    cases b
    · rfl
    · exact ih t'

/-- C42: iterating over the fields hands the fields to the loop body in order until the body breaks out of the loop, and
never panics, whatever the body does. -/
theorem C42_fields_iterator {τ : Type} (yield : τ → GoString → Bool × τ) (f : List UInt8) (fs : List (List UInt8))
    (h : FieldsText f fs) (t : τ) : ∃ remain, fieldsIter yield (f.length + 1) f t = .ok (remain, consume yield t fs) := by
  obtain ⟨r, _, h1, _⟩ := fieldsIter_spec yield h (f.length + 1) (by omega) t
  rw [feed_eq_consume] at h1
  exact ⟨r, h1⟩

theorem fieldsIter_all_remain {τ : Type} (yield : τ → GoString → Bool × τ) (hy : ∀ t v, (yield t v).1 = true) {f : List UInt8}
    {fs : List (List UInt8)} (h : FieldsText f fs) : ∀ fuel, f.length < fuel → ∀ t, ∃ remain last,
      fieldsIter yield fuel f t = .ok (remain, feed yield t fs) ∧ FieldsText remain [last] ∧ fs.getLast? = some last := by
  induction h with
  | last s t hs hp =>
    intro fuel hf tt
    match fuel, hf with
    | fuel + 1, _ =>
      unfold fieldsIter
      rw [show bytesCut s fieldSeparator = (s, [], false) from bytesCut_notMem hs]
      simp only [TrimSpace_padded hp, feed]
      have := hy tt t
      rcases hyy : yield tt t with ⟨b, t'⟩
      rw [hyy] at this
      simp only at this
      subst this
      exact ⟨s, t, rfl, .last _ _ hs hp, rfl⟩
  | cons s t rest ts hs hp hr ih =>
    intro fuel hf tt
    rw [List.length_append, List.length_cons] at hf
    match fuel, hf with
    | fuel + 1, hf =>
      unfold fieldsIter
      rw [bytesCut_semicolon hs]
      simp only [TrimSpace_padded hp, feed]
      have := hy tt t
      rcases hyy : yield tt t with ⟨b, t'⟩
      rw [hyy] at this
      simp only at this
      subst this
      obtain ⟨remain, last, h1, h2, h3⟩ := ih fuel (by omega) t'
      refine ⟨remain, last, h1, h2, ?_⟩
      rw [List.getLast?_cons, h3]
      rfl

/-- C42: the iterator can be used only once: a second loop over the same iterator value sees only the last field. -/
theorem C42_second_loop_sees_last_field (f : List UInt8) (fs : List (List UInt8)) (h : FieldsText f fs) :
    ∃ remain last, fieldsIter (fun acc v => (true, acc ++ [v])) (f.length + 1) f [] = .ok (remain, fs) ∧
      fs.getLast? = some last ∧ allFields remain = .ok [last] := by
  obtain ⟨r, l, h1, h2, h3⟩ := fieldsIter_all_remain (fun acc v => (true, acc ++ [v])) (fun _ _ => rfl) h (f.length + 1)
    (by omega) []
  rw [feed_collect] at h1
  exact ⟨r, l, h1, h3, allFields_eq h2⟩

/-- C43: no line of a data file makes the test data parser panic (the other parser: C34, C35 for all files). -/
theorem C43_test_line_never_panics (line : List UInt8) : ∃ r, parseTestLine line = .ok r := parseTestLine_total line

/-- C43: whatever the file contains and however it is delivered, both parsers come to an end: after finitely many entries
(fewer than the file has bytes) they return an error or `io.EOF`, without a panic. -/
theorem C43_parsers_end {σ : Type} (read : Reader σ) (E : IOErr) (rd : σ) (D : List UInt8) (hd : Delivers read E rd D 0)
    (fuel : Nat) (hfu : D.length < fuel) :
    (∃ r, allEntries read fuel (newScanner rd 0) = .ok r) ∧ ∃ r, allTestEntries read fuel (newScanner rd 0) = .ok r := by
  obtain ⟨toks, F, _, h2⟩ := stream_spec goodSplit_lines read E rd D 0 maxScanTokenSize (by decide) hd
  constructor
  · obtain ⟨es, fe, hm⟩ := linesMean_exists toks
    obtain ⟨ents, err, h, _⟩ := allEntries_of_collect fuel (h2 fuel hfu) hm
    exact ⟨_, h⟩
  · exact allTestEntries_total fuel (h2 fuel hfu)

/-- A line that is no test line: the parser returns an error. -/
example : parseTestLine (str "÷ 00G1 ÷") = .ok (some (.error (.invalidChar (str "00G1")))) := by decide +kernel

/-! ## Examples -/

/-- "0041..005a ;\tFoo Bar; b # c" -/
def exampleLine : List UInt8 := str "0041..005a ;\tFoo Bar; b # c"

theorem exampleLine_entry : IsEntryLine exampleLine 0x41 0x5A [str "Foo Bar", str "b"] := by
  refine ⟨str "0041..005a ", str "0041..005a", str "\tFoo Bar; b ", ⟨by decide +kernel, Or.inr ⟨str " c", by decide +kernel⟩⟩,
    by decide +kernel, padded_iff.mpr (by decide +kernel), rangeText_cut.mpr (by decide +kernel), ?_⟩
  have : str "\tFoo Bar; b " = str "\tFoo Bar" ++ semicolon :: str " b " := by decide +kernel
  rw [this]
  exact .cons _ _ _ _ (by decide +kernel) (padded_iff.mpr (by decide +kernel))
    (.last _ _ (by decide +kernel) (padded_iff.mpr (by decide +kernel)))

/-- "zz ; x" -/
theorem exampleLine_malformed : IsMalformedLine (str "zz ; x") := by
  refine ⟨str "zz ", str "zz", str " x", ⟨by decide +kernel, Or.inl (by decide +kernel)⟩, by decide +kernel,
    padded_iff.mpr (by decide +kernel), fun lo hi h => ?_⟩
  have := rangeText_cut.mp h
  rw [show bytesCut (str "zz") rangeSeparator = (str "zz", [], false) by decide +kernel] at this
  simp only at this
  rw [show ParseUint (str "zz") = none by decide +kernel] at this
  cases this.1

/-- A file with a comment line, an empty line, a data line and a malformed line. -/
def exampleFile : List UInt8 := str "# x\n\n" ++ exampleLine ++ str "\r\nzz ; x\n12; y"

theorem exampleFile_lines : FileOf [str "# x", [], exampleLine, str "zz ; x", str "12; y"] exampleFile := by
  refine .lf (str "# x") _ _ (by decide +kernel) (by decide +kernel) ?_
  refine .lf [] _ _ (by decide) (by decide) ?_
  refine .crlf exampleLine _ _ (by decide +kernel) ?_
  refine .lf (str "zz ; x") _ _ (by decide +kernel) (by decide +kernel) ?_
  exact .last (str "12; y") (by decide +kernel) (by decide +kernel) (by decide +kernel)

theorem exampleFile_mean : LinesMean [str "# x", [], exampleLine, str "zz ; x", str "12; y"]
    [(0x41, 0x5A, [str "Foo Bar", str "b"])] (.malformed (str "zz ; x")) :=
  .skip _ _ _ _ ⟨[], ⟨by decide, Or.inr ⟨str " x", by decide +kernel⟩⟩, by decide⟩
    (.skip _ _ _ _ ⟨[], ⟨by decide, Or.inl rfl⟩, by decide⟩
      (.entry _ _ _ _ _ _ _ exampleLine_entry (.malformed _ _ exampleLine_malformed)))

/-- The hypotheses of C35 hold for this file, delivered byte by byte. -/
example : ∃ ents err, allEntries dripReader 100 (newScanner exampleFile 0) = .ok (ents, err) ∧
    ForallTwo EntryFor ents [(0x41, 0x5A, [str "Foo Bar", str "b"])] ∧
    ((∃ x, err = .invalidStart x ∧ BadStart (str "zz ; x") x) ∨ ∃ x, err = .invalidEnd x ∧ BadEnd (str "zz ; x") x) :=
  C35_malformed_range dripReader .eof exampleFile exampleFile (dripReader_delivers _) _ exampleFile_lines
    (shortLines_of_length (by decide +kernel)) _ _
    exampleFile_mean 100 (by decide +kernel)

/-- The hypotheses of C34 hold for the file without the last two lines. -/
example : ∃ ents, allEntries dripReader 100 (newScanner (exampleLine ++ [newline]) 0) = .ok (ents, .io .eof) ∧
    ForallTwo EntryFor ents [(0x41, 0x5A, [str "Foo Bar", str "b"])] :=
  C34_file dripReader .eof _ _ (dripReader_delivers _) [exampleLine]
    (.lf exampleLine _ _ (by decide +kernel) (by decide +kernel) .nil) (shortLines_of_length (by decide +kernel)) _
    (.entry _ _ _ _ _ _ _ exampleLine_entry .done) 100 (by decide +kernel)

/-- The upper end of the 32-bit range: `End` overflows. -/
example : parseLine (str "7FFFFFFF;x") = some (.ok { Start := 0x7FFFFFFF, End := -0x80000000, Fields := str "x" }) := by
  decide +kernel

/-- "÷ 0061 × 0301 ÷ 000A ÷ # x" -/
theorem exampleTest : IsTestLine (str "÷ 0061 × 0301 ÷ 000A ÷ # x") [['a', '\u0301'], ['\n']] := by
  have hx : ∀ (t : List UInt8) (v : Nat), ParseUint t = some v → IsHex t v := fun t v h => (ParseUint_iff.mp h).1
  refine ⟨by simp, [], str " 0061 × 0301 ÷ 000A ÷ ", ⟨[], by simp, rfl⟩, ?_,
    by decide +kernel, Or.inr ⟨str " x", by decide +kernel⟩⟩
  have e : str " 0061 × 0301 ÷ 000A ÷ " = (str " 0061 " ++ multiplicationSign ++ str " 0301 ") ++ divisionSign ++
      (str " 000A " ++ divisionSign ++ str " ") := by decide +kernel
  rw [e]
  refine .cons _ _ _ _ (.cons _ (str "0061") _ _ _ (hx _ _ (by decide +kernel)) (padded_iff.mpr (by decide +kernel))
    (.last _ (str "0301") _ (hx _ _ (by decide +kernel)) (padded_iff.mpr (by decide +kernel)))) ?_
  refine .cons _ _ _ _ (.last _ (str "000A") _ (hx _ _ (by decide +kernel)) (padded_iff.mpr (by decide +kernel))) ?_
  exact .nil _ ⟨[' '], by decide, by decide +kernel⟩

/-- The hypotheses of C36 hold for a file with this line and a comment line. -/
example : ∃ ents, allTestEntries bytesReader 100 (newScanner (str "# y\n" ++ str "÷ 0061 × 0301 ÷ 000A ÷ # x") 0) =
    .ok (ents, .io .eof) ∧ ents.map TestDataEntry.Input = [[0x61, 0xCC, 0x81, 0x0A]] ∧
    ents.map TestDataEntry.WantSegments = [[[0x61, 0xCC, 0x81], [0x0A]]] := by
  obtain ⟨ents, h1, h2, h3⟩ := C36_test_data bytesReader .eof _ _ (bytesReader_delivers (str "# y\n" ++ str "÷ 0061 × 0301 ÷ 000A ÷ # x"))
    [str "# y", str "÷ 0061 × 0301 ÷ 000A ÷ # x"]
    (.lf (str "# y") _ _ (by decide +kernel) (by decide +kernel)
      (.last _ (by decide +kernel) (by decide +kernel) (by decide +kernel)))
    (shortLines_of_length (by decide +kernel)) [[['a', '\u0301'], ['\n']]]
    (.skip _ _ _ ⟨[], ⟨[], by simp, rfl⟩, by decide, Or.inr ⟨str " y", by decide +kernel⟩⟩ (.test _ _ _ _ exampleTest .done))
    100 (by decide +kernel)
  exact ⟨ents, h1, h2.trans (by decide +kernel), h3.trans (by decide +kernel)⟩

/-- A file with a data line and then a line of 65537 letters: the hypotheses of C45 hold. -/
theorem exampleLong : LongLineAfter 65537 [str "12; y"] (str "12; y\n" ++ List.replicate 65537 0x61) :=
  ⟨str "12; y\n", List.replicate 65537 0x61, rfl,
    (by
      have e : str "12; y\n" = str "12; y" ++ newline :: [] := by decide +kernel
      rw [e]
      exact .lf _ _ _ (by decide +kernel) (by decide +kernel) .nil),
    .inr (by decide +kernel), shortLines_of_length (by decide +kernel),
    (by
      rw [List.take_replicate]
      intro h
      exact absurd (List.mem_replicate.mp h).2 (by decide)),
    by rw [List.length_replicate]; exact Nat.le_refl _⟩

theorem exampleShortEntry : IsEntryLine (str "12; y") 0x12 0x12 [str "y"] :=
  ⟨str "12", str "12", str " y", ⟨by decide +kernel, Or.inl (by decide +kernel)⟩, by decide +kernel,
    padded_iff.mpr (by decide +kernel), rangeText_cut.mpr (by decide +kernel), .last _ _ (by decide +kernel) (padded_iff.mpr (by decide +kernel))⟩

example : ∃ ents, allEntries bytesReader 70000 (newScanner (str "12; y\n" ++ List.replicate 65537 0x61) 0) = .ok (ents, .io .tooLong) ∧
    ForallTwo EntryFor ents [(0x12, 0x12, [str "y"])] :=
  C45_overlong_line bytesReader .eof _ _ (bytesReader_delivers _) _ exampleLong _ (.entry _ _ _ _ _ _ _ exampleShortEntry .done) _
    (by rw [List.length_append, List.length_replicate, show (str "12; y\n").length = 6 by decide +kernel]; omega)

/-- A test line with a surrogate, a negative number and an empty segment, and a line with an error: the hypotheses of
`C36_every_file` hold. -/
theorem exampleOddLine : TestLineMeans (str "÷ D800 × -1 ÷ ÷ +41") (some (.ok [['\uFFFD', '\uFFFD'], ['A']])) := by
  have h : ∀ (p t : List UInt8) (v : Int), TrimSpace p = t → ParseInt t = some v → PieceMeans p (.ok [charFor v]) :=
    fun p t v hp hv => .char p t v (padded_iff.mpr hp) (ParseInt_iff.mp hv).1 (ParseInt_iff.mp hv).2
  refine .test _ (str "÷ D800 × -1 ÷ ÷ +41") (str "÷ D800 × -1 ÷ ÷ +41") [[], str " D800 × -1 ", str " ", str " +41"]
    [[], [charFor 0xD800, charFor (-1)], [], [charFor 0x41]] ⟨by decide +kernel, Or.inl rfl⟩ (padded_iff.mpr (by decide +kernel))
    (by decide +kernel) (splitBy_division.mpr (by decide +kernel)) ?_
  refine .ok _ [[]] _ _ _ (splitBy_multiplication.mpr (by decide +kernel)) (.ok _ _ _ _ (.blank _ (padded_iff.mpr (by decide +kernel))) .nil) ?_
  refine .ok _ [str " D800 ", str " -1 "] _ _ _ (splitBy_multiplication.mpr (by decide +kernel))
    (.ok _ _ [_] _ (h _ (str "D800") _ (by decide +kernel) (by decide +kernel)) (.ok _ _ [_] _ (h _ (str "-1") _ (by decide +kernel) (by decide +kernel)) .nil)) ?_
  refine .ok _ [str " "] _ _ _ (splitBy_multiplication.mpr (by decide +kernel)) (.ok _ _ _ _ (.blank _ (padded_iff.mpr (by decide +kernel))) .nil) ?_
  exact .ok _ [str " +41"] _ _ _ (splitBy_multiplication.mpr (by decide +kernel))
    (.ok _ _ [_] _ (h _ (str "+41") _ (by decide +kernel) (by decide +kernel)) .nil) .nil

theorem exampleBadLine : TestLineMeans (str "÷ 0041 × 00G1 ÷") (some (.error (str "00G1"))) := by
  refine .bad _ (str "÷ 0041 × 00G1 ÷") (str "÷ 0041 × 00G1 ÷") [[], str " 0041 × 00G1 ", []] _ ⟨by decide +kernel, Or.inl rfl⟩
    (padded_iff.mpr (by decide +kernel)) (by decide +kernel) (splitBy_division.mpr (by decide +kernel)) ?_
  refine .later _ [[]] _ _ _ (splitBy_multiplication.mpr (by decide +kernel)) (.ok _ _ _ _ (.blank _ (padded_iff.mpr (by decide +kernel))) .nil) ?_
  refine .here _ [str " 0041 ", str " 00G1 "] _ _ (splitBy_multiplication.mpr (by decide +kernel)) (.later _ _ [charFor 0x41] _
    (.char _ (str "0041") _ (padded_iff.mpr (by decide +kernel)) (ParseInt_iff.mp (by decide +kernel)).1 (by unfold Is32Bit; decide))
    (.here _ _ _ (.bad _ _ (padded_iff.mpr (by decide +kernel)) (by decide +kernel) fun v h1 h2 => ?_)))
  have : ParseInt (str "00G1") = none := by decide +kernel
  rw [ParseInt_iff.mpr ⟨h1, h2⟩] at this
  cases this

example : ∃ ents, allTestEntries dripReader 100 (newScanner (str "÷ D800 × -1 ÷ ÷ +41\n÷ 0041 × 00G1 ÷") 0) =
    .ok (ents, .invalidChar (str "00G1")) ∧ ents.map TestDataEntry.Input = [str "\uFFFD\uFFFDA"] := by
  obtain ⟨ents, h1, h2, _⟩ := C36_every_file dripReader .eof _ _ (dripReader_delivers (str "÷ D800 × -1 ÷ ÷ +41\n÷ 0041 × 00G1 ÷"))
    [str "÷ D800 × -1 ÷ ÷ +41", str "÷ 0041 × 00G1 ÷"]
    (.lf (str "÷ D800 × -1 ÷ ÷ +41") _ _ (by decide +kernel) (by decide +kernel)
      (.last (str "÷ 0041 × 00G1 ÷") (by decide +kernel) (by decide +kernel) (by decide +kernel)))
    (shortLines_of_length (by decide +kernel)) _ _ (.test _ _ _ _ _ exampleOddLine (.bad _ _ _ exampleBadLine)) 100 (by decide +kernel)
  exact ⟨ents, h1, h2.trans (by decide +kernel)⟩

/-- An iterator used twice. -/
example : FieldsText (str "a; b ;c") [str "a", str "b", str "c"] ∧
    fieldsIter (fun acc v => (true, acc ++ [v])) 8 (str "a; b ;c") [] = .ok (str "c", [str "a", str "b", str "c"]) ∧
    allFields (str "c") = .ok [str "c"] := by
  refine ⟨?_, by decide +kernel, by decide +kernel⟩
  have e : str "a; b ;c" = str "a" ++ semicolon :: (str " b " ++ semicolon :: str "c") := by decide +kernel
  rw [e]
  exact .cons _ _ _ _ (by decide +kernel) (padded_iff.mpr (by decide +kernel))
    (.cons _ _ _ _ (by decide +kernel) (padded_iff.mpr (by decide +kernel))
      (.last _ _ (by decide +kernel) (padded_iff.mpr (by decide +kernel))))

end Textseg.Props
