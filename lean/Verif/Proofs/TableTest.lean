import Verif.Model.TableTest
import Verif.Model.ConformanceTest
import Verif.Spec.TableTest
import Verif.Proofs.GenFiles
import Verif.Proofs.GenUCD
import Verif.Proofs.TestLine
/-!
# The table tests
-/

namespace Textseg.Gen
open Textseg Spec Scanner

/-- What a test wants for an entry, and the bits that it looks at. -/
def _root_.Textseg.TableTest.want : TableTest → FileEntry → Option UInt8
  | .graphemeBreakProperty => gcbWant LookupGCBProperty
  | .emojiExtendedPictographic => pictWant
  | .indicConjunctBreakProperty => incbWant LookupInCBProperty

def _root_.Textseg.TableTest.part : TableTest → UInt8 → UInt8
  | .graphemeBreakProperty => fun v => v &&& 0x0F
  | .emojiExtendedPictographic => fun v => v &&& 0x0F
  | .indicConjunctBreakProperty => fun v => v &&& 0xF0

theorem runeChar_ofNat {n : Nat} (h : n < 2 ^ 31) : runeChar (Int32.ofNat n) = charFor n := by
  unfold runeChar charFor
  rw [ofNat_toInt h]

/-- The outcome of one check. -/
def checkOutcome (f : Char → UInt8 × Nat) (part : UInt8 → UInt8) (x : Nat × UInt8) : Bool :=
  part (f (charFor x.1)).1 == x.2 && (f (charFor x.1)).2 == (String.utf8EncodeChar (charFor x.1)).length

variable {lookup : List UInt8 → Go (CharProperties × Nat)} {f : Char → UInt8 × Nat}

theorem lookupSubtest_eq (hl : ∀ c, lookup (String.utf8EncodeChar c) = .ok (f c)) (part : UInt8 → UInt8) (want : UInt8) {n : Nat}
    (h : n < 2 ^ 31) : lookupSubtest lookup part want (Int32.ofNat n) = .ok (checkOutcome f part (n, want)) := by
  unfold lookupSubtest checkOutcome
  rw [EncodeRune_eq, runeChar_ofNat h]
  simp only [bind, Except.bind, hl]

theorem rangeSubtests_eq (hl : ∀ c, lookup (String.utf8EncodeChar c) = .ok (f c)) (part : UInt8 → UInt8) (want : UInt8) (n : Nat) :
    ∀ lo, lo + n < 2 ^ 31 → rangeSubtests (lookupSubtest lookup part want) n (Int32.ofNat lo) =
      .ok (((List.range n).map fun i => (lo + i, want)).map (checkOutcome f part)) := by
  induction n with
  | zero => intro lo _; rfl
  | succ n ih =>
    intro lo h
    rw [rangeSubtests, lookupSubtest_eq hl part want (by omega)]
    simp only [bind, Except.bind]
    rw [ofNat_succ, ih (lo + 1) (by omega)]
    simp only
    rw [List.range_succ_eq_map, List.map_cons, List.map_cons, List.map_map, Nat.add_zero, List.map_map, List.map_map]
    congr 2
    refine List.map_congr_left fun i _ => ?_
    simp only [Function.comp_apply]
    rw [show lo + 1 + i = lo + i.succ by omega]

theorem rangeSubtests_entry (hl : ∀ c, lookup (String.utf8EncodeChar c) = .ok (f c)) (part : UInt8 → UInt8) (want : UInt8)
    {e : Entry} {x : FileEntry} (h : EntryIs e x) (hx : SmallEntry x) :
    rangeSubtests (lookupSubtest lookup part want) (rangeCount e) e.Start =
      .ok (((List.range (x.2.1 + 1 - x.1)).map fun i => (x.1 + i, want)).map (checkOutcome f part)) := by
  obtain ⟨h1, h2⟩ := rangeCount_eq h hx
  rw [h1, h2]
  obtain ⟨h3, h4⟩ := hx
  by_cases hle : x.1 ≤ x.2.1 + 1
  · exact rangeSubtests_eq hl part want _ _ (by omega)
  · exact rangeSubtests_eq hl part want _ _ (by omega)

theorem checksOf_cons (want : FileEntry → Option UInt8) (x : FileEntry) (es : List FileEntry) :
    checksOf want (x :: es) = checksOf want [x] ++ checksOf want es := by
  unfold checksOf
  rw [List.flatMap_cons, List.flatMap_cons, List.flatMap_nil, List.append_nil]

theorem checksOf_some {want : FileEntry → Option UInt8} {x : FileEntry} {v : UInt8} (h : want x = some v) :
    checksOf want [x] = (List.range (x.2.1 + 1 - x.1)).map fun i => (x.1 + i, v) := by
  unfold checksOf
  rw [List.flatMap_cons, List.flatMap_nil, List.append_nil, h]

theorem checksOf_none {want : FileEntry → Option UInt8} {x : FileEntry} (h : want x = none) : checksOf want [x] = [] := by
  unfold checksOf
  rw [List.flatMap_cons, List.flatMap_nil, List.append_nil, h]

theorem entrySubtests_eq (hl : ∀ c, lookup (String.utf8EncodeChar c) = .ok (f c)) (test : TableTest) {e : Entry} {x : FileEntry}
    (h : EntryIs e x) (hx : SmallEntry x) :
    entrySubtests lookup test e = .ok ((checksOf test.want [x]).map (checkOutcome f test.part)) := by
  cases test with
  | graphemeBreakProperty =>
    have hf := h.first
    unfold entrySubtests
    rcases hl' : x.2.2 with _ | ⟨n, ns⟩
    · rw [hl'] at hf; cases hf
    · rw [hl'] at hf
      simp only [List.head?_cons, Option.some.injEq] at hf
      simp only
      rw [checksOf_some (v := LookupGCBProperty n) (by simp [Textseg.TableTest.want, gcbWant, hl']), hf]
      exact rangeSubtests_entry hl _ _ h hx
  | emojiExtendedPictographic =>
    have hf := h.first
    unfold entrySubtests
    rcases hl' : x.2.2 with _ | ⟨n, ns⟩
    · rw [hl'] at hf; cases hf
    · rw [hl'] at hf
      simp only [List.head?_cons, Option.some.injEq] at hf
      simp only
      rw [hf]
      by_cases hn : n = str "Extended_Pictographic"
      · have hp : LookupEmojiProperty n = 4 := by unfold LookupEmojiProperty; rw [if_pos hn]; rfl
        rw [checksOf_some (v := 4) (by simp [Textseg.TableTest.want, pictWant, hl', ascii_pict, hn]), hp, if_neg (by decide)]
        exact rangeSubtests_entry hl _ _ h hx
      · have hp : LookupEmojiProperty n = 0 := by unfold LookupEmojiProperty; rw [if_neg hn]; rfl
        rw [checksOf_none (by simp [Textseg.TableTest.want, pictWant, hl', ascii_pict, hn]), hp, if_pos (by decide)]
        rfl
  | indicConjunctBreakProperty =>
    unfold entrySubtests
    simp only
    rw [h.all]
    simp only [bind, Except.bind]
    rcases hl' : x.2.2 with _ | ⟨n, _ | ⟨m, ns⟩⟩
    · simp only
      rw [checksOf_none (by simp [Textseg.TableTest.want, incbWant, hl'])]; rfl
    · simp only
      rw [checksOf_none (by simp [Textseg.TableTest.want, incbWant, hl'])]; rfl
    · simp only
      by_cases hn : n = str "InCB"
      · rw [checksOf_some (v := LookupInCBProperty m) (by simp [Textseg.TableTest.want, incbWant, hl', ascii_incb, hn]), if_neg (by simpa using hn)]
        exact rangeSubtests_entry hl _ _ h hx
      · rw [checksOf_none (by simp [Textseg.TableTest.want, incbWant, hl', ascii_incb, hn]), if_pos hn]; rfl

theorem runTableTest_eq (hl : ∀ c, lookup (String.utf8EncodeChar c) = .ok (f c)) (test : TableTest) {σ : Type} {read : Reader σ}
    {E : IOErr} (fuel : Nat) :
    ∀ {s : Scanner σ} {lines : List (List UInt8)} {es : List FileEntry} {fe : FileEnd},
    s.collect ScanLines read maxScanTokenSize fuel = .ok (lines, errOf E) → LinesMean lines es fe → (∀ x ∈ es, SmallEntry x) →
    ∃ complete, runTableTest lookup test read fuel s = .ok ((checksOf test.want es).map (checkOutcome f test.part), complete) ∧
      (complete = true ↔ fe = .complete ∧ E = .eof) := by
  induction fuel with
  | zero => intro s lines es fe h; cases h
  | succ fuel ih =>
    intro s lines es fe h hm hs
    obtain ⟨r, s', h1, h2⟩ := nextEntry_of_collect (fuel + 1) h hm
    cases es with
    | nil =>
      cases fe with
      | complete =>
        simp only at h2
        subst h2
        refine ⟨_, by rw [runTableTest, h1]; rfl, ?_⟩
        simp
      | malformed =>
        obtain ⟨e, rfl, he⟩ := h2
        refine ⟨_, by rw [runTableTest, h1]; rfl, ?_⟩
        rcases he with ⟨x, rfl, _⟩ | ⟨x, rfl, _⟩ <;> simp
    | cons x es =>
      obtain ⟨e, ls, f', rfl, g2, g3, g4, g5⟩ := h2
      obtain ⟨c, i1, i2⟩ := ih (collect_mono f' g5 fuel (by omega)) g3 (fun y hy => hs y (List.mem_cons_of_mem _ hy))
      refine ⟨c, ?_, i2⟩
      rw [runTableTest]
      simp only [bind, Except.bind, h1, entrySubtests_eq hl test g2 (hs x List.mem_cons_self), i1]
      rw [checksOf_cons test.want x es, List.map_append]

theorem tableTest_data (hl : ∀ c, lookup (String.utf8EncodeChar c) = .ok (f c)) (test : TableTest) {σ : Type} {read : Reader σ}
    {rd : σ} {E fuel es fe} (h : DataFile read rd E fuel es fe) :
    ∃ complete, runTableTest lookup test read fuel (newScanner rd 0) =
        .ok ((checksOf test.want es).map (checkOutcome f test.part), complete) ∧
      (complete = true ↔ fe = .complete ∧ E = .eof) := by
  obtain ⟨D, lines, hl', hm, hfu⟩ := h.file
  exact runTableTest_eq hl test fuel (collect_file hl' fuel hfu) hm h.small

theorem mem_checksOf {want : FileEntry → Option UInt8} {es : List FileEntry} {c : Nat} {v : UInt8} :
    (c, v) ∈ checksOf want es ↔ ∃ x ∈ es, want x = some v ∧ x.1 ≤ c ∧ c ≤ x.2.1 := by
  unfold checksOf
  rw [List.mem_flatMap]
  constructor
  · rintro ⟨x, hx, hm⟩
    cases hw : want x with
    | none => rw [hw] at hm; cases hm
    | some w =>
      rw [hw] at hm
      obtain ⟨i, hi, e⟩ := List.mem_map.mp hm
      rw [List.mem_range] at hi
      simp only [Prod.mk.injEq] at e
      refine ⟨x, hx, by rw [hw, e.2], by omega, by omega⟩
  · rintro ⟨x, hx, hw, h1, h2⟩
    refine ⟨x, hx, ?_⟩
    rw [hw]
    exact List.mem_map.mpr ⟨c - x.1, by rw [List.mem_range]; omega, by rw [Nat.add_sub_cancel' h1]⟩

theorem checks_all {part : UInt8 → UInt8} {want : FileEntry → Option UInt8} {es : List FileEntry} :
    ((checksOf want es).map (checkOutcome f part)).all id = true ↔
      ∀ x ∈ es, ∀ v, want x = some v → ∀ c, x.1 ≤ c → c ≤ x.2.1 →
        part (f (charFor c)).1 = v ∧ (f (charFor c)).2 = (String.utf8EncodeChar (charFor c)).length := by
  rw [List.all_map, List.all_eq_true]
  constructor
  · intro h x hx v hw c h1 h2
    have := h (c, v) (mem_checksOf.mpr ⟨x, hx, hw, h1, h2⟩)
    simpa [checkOutcome] using this
  · rintro h ⟨c, v⟩ hm
    obtain ⟨x, hx, hw, h1, h2⟩ := mem_checksOf.mp hm
    have := h x hx v hw c h1 h2
    simpa [checkOutcome] using this

end Textseg.Gen
