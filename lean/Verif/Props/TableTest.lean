import Verif.Proofs.TableTestFiles
import Verif.Props.Committed
/-!
# C54: what the table tests of the repository establish

`runTableTest lookup test` is one of the three tests of property_table_test.go that read a data file, of a function `lookup`
(in the repository, `LookupFirstChar`): the outcomes of the subtests, and whether the test came to the end of the file. `passes`
says that it did and that all subtests passed. A code point that is no Unicode scalar value is tested as U+FFFD (`charFor`).
-/

namespace Textseg.Gen
open Textseg Spec Scanner

variable {σ : Type} {read : Reader σ} {rd : σ} {E : IOErr} {fuel : Nat} {es : List FileEntry} {fe : FileEnd}
  {lookup : List UInt8 → Go (CharProperties × Nat)} {f : Char → UInt8 × Nat}

/-- **C54.** On any data file, there is one subtest for each code point of each entry in turn, whose outcome says whether the low
four bits of the properties are the code for the first field, and the length is that of the character; and the test comes to
the end of the file exactly if there is no malformed line and reading does not fail. -/
theorem C54_break_property_outcomes (hl : ∀ c, lookup (String.utf8EncodeChar c) = .ok (f c)) (h : DataFile read rd E fuel es fe) :
    ∃ complete, runTableTest lookup .graphemeBreakProperty read fuel (newScanner rd 0) =
        .ok ((checksOf (gcbWant LookupGCBProperty) es).map fun x => (f (charFor x.1)).1 &&& 0x0F == x.2 &&
          (f (charFor x.1)).2 == (String.utf8EncodeChar (charFor x.1)).length, complete) ∧
      (complete = true ↔ fe = .complete ∧ E = .eof) :=
  tableTest_data hl .graphemeBreakProperty h

/-- **C54.** The same for the second test: one subtest for each code point of each entry for Extended_Pictographic. -/
theorem C54_pictographic_outcomes (hl : ∀ c, lookup (String.utf8EncodeChar c) = .ok (f c)) (h : DataFile read rd E fuel es fe) :
    ∃ complete, runTableTest lookup .emojiExtendedPictographic read fuel (newScanner rd 0) =
        .ok ((checksOf pictWant es).map fun x => (f (charFor x.1)).1 &&& 0x0F == x.2 &&
          (f (charFor x.1)).2 == (String.utf8EncodeChar (charFor x.1)).length, complete) ∧
      (complete = true ↔ fe = .complete ∧ E = .eof) :=
  tableTest_data hl .emojiExtendedPictographic h

/-- **C54.** The same for the third test: one subtest for each code point of each entry for InCB, which looks at the high four
bits. -/
theorem C54_conjunct_break_outcomes (hl : ∀ c, lookup (String.utf8EncodeChar c) = .ok (f c)) (h : DataFile read rd E fuel es fe) :
    ∃ complete, runTableTest lookup .indicConjunctBreakProperty read fuel (newScanner rd 0) =
        .ok ((checksOf (incbWant LookupInCBProperty) es).map fun x => (f (charFor x.1)).1 &&& 0xF0 == x.2 &&
          (f (charFor x.1)).2 == (String.utf8EncodeChar (charFor x.1)).length, complete) ∧
      (complete = true ↔ fe = .complete ∧ E = .eof) :=
  tableTest_data hl .indicConjunctBreakProperty h

/-- **C54.** So each test passes exactly if the file is read to its end and every code point that is listed in it has, in the
part that is tested, the code that is wanted; nothing else matters to it. -/
theorem C54_passes_iff (hl : ∀ c, lookup (String.utf8EncodeChar c) = .ok (f c)) (h : DataFile read rd E fuel es fe)
    (test : TableTest) (want : FileEntry → Option UInt8) (mask : UInt8)
    (htest : (test, want, mask) ∈ [(TableTest.graphemeBreakProperty, gcbWant LookupGCBProperty, 0x0F),
      (.emojiExtendedPictographic, pictWant, 0x0F), (.indicConjunctBreakProperty, incbWant LookupInCBProperty, 0xF0)]) :
    ∃ r, runTableTest lookup test read fuel (newScanner rd 0) = .ok r ∧
      (passes r = true ↔ fe = .complete ∧ E = .eof ∧ ∀ x ∈ es, ∀ v, want x = some v → ∀ c, x.1 ≤ c → c ≤ x.2.1 →
        (f (charFor c)).1 &&& mask = v ∧ (f (charFor c)).2 = (String.utf8EncodeChar (charFor c)).length) := by
  obtain ⟨complete, h1, h2⟩ := tableTest_data hl test h
  refine ⟨_, h1, ?_⟩
  have e : test.want = want ∧ test.part = fun v => v &&& mask := by
    simp only [List.mem_cons, Prod.mk.injEq, List.not_mem_nil, or_false] at htest
    rcases htest with ⟨rfl, rfl, rfl⟩ | ⟨rfl, rfl, rfl⟩ | ⟨rfl, rfl, rfl⟩ <;> exact ⟨rfl, rfl⟩
  rw [passes, Bool.and_eq_true, h2, checks_all, and_assoc, e.1, e.2]

/-- The committed files, in whatever portions they are read. -/
structure CommittedFiles {σ : Type} (read : Reader σ) (rd1 rd2 rd3 : σ) (fuel : Nat) : Prop where
  gcb : Delivers read .eof rd1 (textFile Text.breakProperty.flatten) 0
  emoji : Delivers read .eof rd2 (textFile Text.emojiData.flatten) 0
  derived : Delivers read .eof rd3 (textFile Text.derivedCore.flatten) 0
  fuel : (textFile Text.breakProperty.flatten).length + (textFile Text.emojiData.flatten).length +
      (textFile Text.derivedCore.flatten).length < fuel

theorem CommittedFiles.data {rd1 rd2 rd3 : σ} (h : CommittedFiles read rd1 rd2 rd3 fuel) :
    ∃ es1 es2 es3, ShippedEntries es1 es2 es3 ∧ DataFile read rd1 .eof fuel es1 .complete ∧
      DataFile read rd2 .eof fuel es2 .complete ∧ DataFile read rd3 .eof fuel es3 .complete := by
  obtain ⟨es1, es2, es3, hs, r1, r2, r3⟩ := committed_read
  have hf := h.fuel
  exact ⟨es1, es2, es3, hs,
    ⟨⟨_, _, .inl ⟨h.gcb, textFile_fileOf (fun n hn => ⟨(r1.lines n hn).1, (r1.lines n hn).2.1⟩), textFile_shortLines r1.lines⟩, r1.mean, by omega⟩, r1.small⟩,
    ⟨⟨_, _, .inl ⟨h.emoji, textFile_fileOf (fun n hn => ⟨(r2.lines n hn).1, (r2.lines n hn).2.1⟩), textFile_shortLines r2.lines⟩, r2.mean, by omega⟩, r2.small⟩,
    ⟨⟨_, _, .inl ⟨h.derived, textFile_fileOf (fun n hn => ⟨(r3.lines n hn).1, (r3.lines n hn).2.1⟩), textFile_shortLines r3.lines⟩, r3.mean, by omega⟩, r3.small⟩⟩

/-- **C54.** With the committed data files and the shipped table, the three tests have 18101, 2848 and 3148 subtests, and all
of them pass. -/
theorem C54_committed_tests_pass {rd1 rd2 rd3 : σ} (h : CommittedFiles read rd1 rd2 rd3 fuel) :
    runTableTest LookupFirstChar .graphemeBreakProperty read fuel (newScanner rd1 0) = .ok (List.replicate 18101 true, true) ∧
    runTableTest LookupFirstChar .emojiExtendedPictographic read fuel (newScanner rd2 0) = .ok (List.replicate 2848 true, true) ∧
    runTableTest LookupFirstChar .indicConjunctBreakProperty read fuel (newScanner rd3 0) = .ok (List.replicate 3148 true, true) := by
  obtain ⟨es1, es2, es3, hs, d1, d2, d3⟩ := h.data
  obtain ⟨w1, w2, w3⟩ := committed_wants hs
  obtain ⟨n1, n2, n3⟩ := committed_counts hs
  have fin : ∀ {rd : σ} {es : List FileEntry} (test : TableTest) (n : Nat), DataFile read rd .eof fuel es .complete →
      (checksOf test.want es).length = n →
      (∀ x ∈ es, ∀ v, test.want x = some v → ∀ c, x.1 ≤ c → c ≤ x.2.1 → c.isValidChar ∧ test.part (ucdByte c) = v) →
      runTableTest LookupFirstChar test read fuel (newScanner rd 0) = .ok (List.replicate n true, true) := by
    intro rd es test n hd hn hw
    obtain ⟨complete, h1, h2⟩ := tableTest_data lookup_char test hd
    obtain rfl : complete = true := h2.mpr ⟨rfl, rfl⟩
    rw [h1]
    congr 2
    have hall := (checks_all (f := fun c => (ucdByte c.val.toNat, (String.utf8EncodeChar c).length))).mpr
      (show ∀ x ∈ es, ∀ v, test.want x = some v → ∀ c, x.1 ≤ c → c ≤ x.2.1 → _ from fun x hx v hv c h1 h2 => by
        obtain ⟨k1, k2⟩ := hw x hx v hv c h1 h2
        rw [charFor_val k1]
        exact ⟨k2, rfl⟩)
    have : ∀ b ∈ (checksOf test.want es).map (checkOutcome (fun c => (ucdByte c.val.toNat, (String.utf8EncodeChar c).length)) test.part), b = true :=
      fun b hb => List.all_eq_true.mp hall b hb
    have := List.eq_replicate_of_mem this
    rw [this, List.length_map, hn]
  exact ⟨fin .graphemeBreakProperty _ d1 n1 fun x hx v hv c h1 h2 => ⟨(w1 x hx v hv c h1 h2).1, (w1 x hx v hv c h1 h2).2.1⟩,
    fin .emojiExtendedPictographic _ d2 n2 fun x hx v hv c h1 h2 => ⟨(w2 x hx v hv c h1 h2).1, (w2 x hx v hv c h1 h2).2.1⟩,
    fin .indicConjunctBreakProperty _ d3 n3 w3⟩

/-- **C54.** All cases of `TestLookupFirstChar` pass. -/
theorem C54_literal_cases : lookupCases.mapM (lookupCase LookupFirstChar) = .ok (List.replicate 8 true) := by decide +kernel

/-- **C54.** But characters that are not listed are never looked up: with the property of `A` in the table replaced by Control, all
three tests still pass, as do all cases of `TestLookupFirstChar`, although the lookup of `A` is wrong. (C23 is what
the tests cannot show.) -/
theorem C54_unlisted_not_tested : ∃ props : Nat → Go UInt8, (∀ i, i ≠ 0x41 → props i = lookupProps.index i) ∧
    LookupFirstCharIn lookupIndices.index props (str "A") = .ok (GCBControl, 1) ∧
    LookupFirstChar (str "A") = .ok (0, 1) ∧
    lookupCases.mapM (lookupCase (LookupFirstCharIn lookupIndices.index props)) = .ok (List.replicate 8 true) ∧
    ∀ {σ : Type} {read : Reader σ} {rd1 rd2 rd3 : σ} {fuel : Nat}, CommittedFiles read rd1 rd2 rd3 fuel →
      ∀ p ∈ [(TableTest.graphemeBreakProperty, rd1), (.emojiExtendedPictographic, rd2), (.indicConjunctBreakProperty, rd3)],
        ∃ r, runTableTest (LookupFirstCharIn lookupIndices.index props) p.1 read fuel (newScanner p.2 0) = .ok r ∧ passes r = true := by
  refine ⟨propsWith 0x41 2, fun i hi => if_neg hi, by decide +kernel, by decide +kernel, by decide +kernel, ?_⟩
  intro σ read rd1 rd2 rd3 fuel h p hp
  have hw : lookupProps.index 0x41 = .ok 0 := by decide +kernel
  have hf : ∀ c : Char, ∃ v : UInt8, LookupFirstCharIn lookupIndices.index (propsWith 0x41 2) (String.utf8EncodeChar c) =
      .ok (v, (String.utf8EncodeChar c).length) ∧ (v = ucdByte c.val.toNat ∨ (ucdByte c.val.toNat = 0 ∧ v = 2)) := by
    intro c
    rcases lookup_with 0x41 2 hw (String.utf8EncodeChar c) with e | ⟨n, e1, e2⟩
    · exact ⟨_, e.trans (lookup_char c), .inl rfl⟩
    · rw [lookup_char, Except.ok.injEq, Prod.mk.injEq] at e1
      exact ⟨2, by rw [e2, e1.2], .inr ⟨e1.1, rfl⟩⟩
  let f : Char → UInt8 × Nat := fun c => (Classical.choose (hf c), (String.utf8EncodeChar c).length)
  have hl : ∀ c, LookupFirstCharIn lookupIndices.index (propsWith 0x41 2) (String.utf8EncodeChar c) = .ok (f c) :=
    fun c => (Classical.choose_spec (hf c)).1
  have hv : ∀ c, (f c).1 = ucdByte c.val.toNat ∨ (ucdByte c.val.toNat = 0 ∧ (f c).1 = 2) :=
    fun c => (Classical.choose_spec (hf c)).2
  obtain ⟨es1, es2, es3, hs, d1, d2, d3⟩ := h.data
  obtain ⟨w1, w2, w3⟩ := committed_wants hs
  have low : ∀ c v : _, c.isValidChar ∧ ucdByte c &&& 0x0F = v ∧ v ≠ 0 → (f (charFor c)).1 &&& 0x0F = v ∧
      (f (charFor c)).2 = (String.utf8EncodeChar (charFor c)).length := by
    rintro c v ⟨k1, k2, k3⟩
    refine ⟨?_, rfl⟩
    rcases hv (charFor c) with e | ⟨e, _⟩
    · rw [e, charFor_val k1, k2]
    · rw [charFor_val k1] at e
      rw [e] at k2
      exact absurd k2.symm k3
  have high : ∀ c v : _, c.isValidChar ∧ ucdByte c &&& 0xF0 = v → (f (charFor c)).1 &&& 0xF0 = v ∧
      (f (charFor c)).2 = (String.utf8EncodeChar (charFor c)).length := by
    rintro c v ⟨k1, k2⟩
    refine ⟨?_, rfl⟩
    rcases hv (charFor c) with e | ⟨e, e'⟩
    · rw [e, charFor_val k1, k2]
    · rw [charFor_val k1] at e
      rw [e', ← k2, e]
      rfl
  simp only [List.mem_cons, List.not_mem_nil, or_false] at hp
  rcases hp with rfl | rfl | rfl
  · obtain ⟨r, h1, h2⟩ := C54_passes_iff hl d1 _ _ _ (.head _)
    exact ⟨r, h1, h2.mpr ⟨rfl, rfl, fun x hx v hv' c h1 h2 => low c v (w1 x hx v hv' c h1 h2)⟩⟩
  · obtain ⟨r, h1, h2⟩ := C54_passes_iff hl d2 _ _ _ (.tail _ (.head _))
    exact ⟨r, h1, h2.mpr ⟨rfl, rfl, fun x hx v hv' c h1 h2 => low c v (w2 x hx v hv' c h1 h2)⟩⟩
  · obtain ⟨r, h1, h2⟩ := C54_passes_iff hl d3 _ _ _ (.tail _ (.tail _ (.head _)))
    exact ⟨r, h1, h2.mpr ⟨rfl, rfl, fun x hx v hv' c h1 h2 => high c v (w3 x hx v hv' c h1 h2)⟩⟩

/-- Readers that deliver the committed files. -/
example : ∃ fuel, CommittedFiles bytesReader (textFile Text.breakProperty.flatten) (textFile Text.emojiData.flatten)
    (textFile Text.derivedCore.flatten) fuel :=
  ⟨_, bytesReader_delivers _, bytesReader_delivers _, bytesReader_delivers _, Nat.lt_succ_self _⟩

/-- A file that lists `a` as Control and, in a range with a surrogate, U+D7FF … U+D801 as Extend: the subtests for `a`, U+D7FF, and
twice U+FFFD fail; one for LF passes. -/
example : runTableTest LookupFirstChar .graphemeBreakProperty bytesReader 100
    (newScanner (str "0061 ; Control\nD7FF..D801;Extend # x\n000A;LF") 0) = .ok ([false, false, false, false, true], true) := by
  decide +kernel

end Textseg.Gen
