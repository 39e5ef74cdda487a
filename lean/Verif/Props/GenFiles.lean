import Verif.Proofs.GenUCD
import Verif.Proofs.GenRender
/-!
# C33, C44: the table generator on data files

`BuildRawPropertyTree read fuel rd1 rd2 rd3` is the function of that name after it has opened its three files. `DataFile`
(`Verif/Spec/GenFiles.lean`) says what the files contain; `fileOps`, `listedProps` and `ShippedEntries` are from
`Verif/Spec/GenTable.lean`.
-/

namespace Textseg.Gen
open Textseg Spec Scanner

variable {σ : Type} {read : Reader σ} {rd1 rd2 rd3 : σ} {fuel : Nat} {es1 es2 es3 : List FileEntry}

/-- **C44.** Whenever the generator makes tables from complete data files, then `LookupFirstChar`, reading these tables, gives
every character the properties that the files list for it. (The generator writes what a file says about a number that is no
scalar value to U+FFFD. Therefore U+FFFD is excluded if there are such numbers.) -/
theorem C44_tables (h1 : DataFile read rd1 .eof fuel es1 .complete) (h2 : DataFile read rd2 .eof fuel es2 .complete)
    (h3 : DataFile read rd3 .eof fuel es3 .complete) (raw : RawPropertyTree) (tab : List UInt8)
    (hb : BuildRawPropertyTree read fuel rd1 rd2 rd3 = .ok (.ok raw)) (ho : outputIndices raw = .ok tab) (c : Char)
    (hc : c ≠ '\uFFFD' ∨ ∀ x ∈ es1 ++ es2 ++ es3, ∀ n, x.1 ≤ n → n ≤ x.2.1 → n.isValidChar) (rest : List UInt8) :
    LookupFirstCharIn (goIndex tab) (goIndex (outputProps raw)) (String.utf8EncodeChar c ++ rest) =
      .ok (listedProps LookupGCBProperty LookupInCBProperty es1 es2 es3 c.val.toNat, (String.utf8EncodeChar c).length) := by
  have hex : ∀ x ∈ es1 ++ es2 ++ es3, Exact c.val.toNat x := by
    intro x hx
    rcases hc with hc | hc
    · refine exact_of_ne (char_valid c) ?_ ?_
      · intro e
        apply hc
        apply Char.ext
        apply UInt32.toNat_inj.mp
        exact e
      · rw [List.append_assoc, List.mem_append, List.mem_append] at hx
        rcases hx with hx | hx | hx
        · exact h1.small x hx
        · exact h2.small x hx
        · exact h3.small x hx
    · exact exact_of_scalar _ (hc x hx)
  have hn : ∀ x ∈ es1, x.2.2 ≠ [] := by
    obtain ⟨_, _, _, hm, _⟩ := h1.file
    exact linesMean_ne hm
  rw [build_complete h1 h2 h3] at hb
  simp only [bind, Except.bind] at hb
  cases ht : runOps newTree (fileOps LookupGCBProperty LookupInCBProperty es1 es2 es3) with
  | error e => rw [ht] at hb; cases hb
  | ok t =>
    rw [ht] at hb
    simp only at hb
    cases hcp : t.Compact with
    | error e => rw [hcp] at hb; cases hb
    | ok raw' =>
      rw [hcp] at hb
      simp only [Except.ok.injEq] at hb
      subst hb
      obtain ⟨IB, PB, hi⟩ := runOps_ok ht
      obtain ⟨st, hf, e, _⟩ := compact_final hi hcp
      have hnar := narrow_output ho
      rw [← recorded_files LookupGCBProperty LookupInCBProperty (fun x hx => hex x (by simp [hx])) (fun x hx => hex x (by simp [hx]))
        (fun x hx => hex x (by simp [hx])) hn]
      subst e
      exact lookupIn_char hf hnar c rest

/-- **C44.** From complete data files the generator makes a tree exactly if the data has no conflict, if it concerns at most
1021 blocks of 64 characters outside ASCII, and if the ASCII characters do not clash. Otherwise it panics. -/
theorem C44_success (h1 : DataFile read rd1 .eof fuel es1 .complete) (h2 : DataFile read rd2 .eof fuel es2 .complete)
    (h3 : DataFile read rd3 .eof fuel es3 .complete) :
    let ops := fileOps LookupGCBProperty LookupInCBProperty es1 es2 es3
    (∃ raw, BuildRawPropertyTree read fuel rd1 rd2 rd3 = .ok (.ok raw)) ↔
      (¬ Conflict ops ∧ AtMostBlocks ops 1021 ∧ ¬ AsciiClash ops) := by
  intro ops
  rw [build_complete h1 h2 h3]
  simp only [bind, Except.bind]
  rcases runOps_new ops with ⟨hc, he⟩ | ⟨hc, t, IB, PB, ht, hi⟩
  · rw [show fileOps LookupGCBProperty LookupInCBProperty es1 es2 es3 = ops from rfl, he]
    simp [hc]
  · rw [show fileOps LookupGCBProperty LookupInCBProperty es1 es2 es3 = ops from rfl, ht, ← compact_iff hi]
    simp only
    cases t.Compact with
    | error e => simp
    | ok raw => simp [hc]

variable {E1 E2 E3 : IOErr} {fe1 fe2 fe3 : FileEnd}

/-- **C44.** If a file has a malformed line, or an overlong line, or cannot be read to its end, the generator makes no table. -/
theorem C44_no_table_from_bad_file (h1 : DataFile read rd1 E1 fuel es1 fe1) (h2 : DataFile read rd2 E2 fuel es2 fe2)
    (h3 : DataFile read rd3 E3 fuel es3 fe3) (raw : RawPropertyTree)
    (h : BuildRawPropertyTree read fuel rd1 rd2 rd3 = .ok (.ok raw)) :
    (fe1 = .complete ∧ E1 = .eof) ∧ (fe2 = .complete ∧ E2 = .eof) ∧ (fe3 = .complete ∧ E3 = .eof) :=
  build_ok h1 h2 h3 h

/-- **C44.** In that case, if the data before does not conflict, the generator returns the error of the first
file that is not complete: that of the reader, that about the overlong line or that about the malformed line. -/
theorem C44_error_returned (h1 : DataFile read rd1 E1 fuel es1 fe1) (h2 : DataFile read rd2 E2 fuel es2 fe2)
    (h3 : DataFile read rd3 E3 fuel es3 fe3) (hc : ¬ Conflict (fileOps LookupGCBProperty LookupInCBProperty es1 es2 es3))
    (hbad : ¬ ((fe1 = .complete ∧ E1 = .eof) ∧ (fe2 = .complete ∧ E2 = .eof) ∧ (fe3 = .complete ∧ E3 = .eof))) :
    ∃ e, BuildRawPropertyTree read fuel rd1 rd2 rd3 = .ok (.error e) ∧
      ((¬ Complete E1 fe1 ∧ FileError E1 fe1 e) ∨ (Complete E1 fe1 ∧ ¬ Complete E2 fe2 ∧ FileError E2 fe2 e) ∨
        (Complete E1 fe1 ∧ Complete E2 fe2 ∧ ¬ Complete E3 fe3 ∧ FileError E3 fe3 e)) := by
  have hnc : ∀ {a b : List TableOp}, ¬ Conflict (a ++ b) → ¬ Conflict a := fun h h' => h (conflict_append _ h')
  have run : ∀ {a : List TableOp}, ¬ Conflict a → ∃ t, runOps newTree a = .ok t := by
    intro a h
    rcases runOps_new a with ⟨hc, _⟩ | ⟨_, t, _, _, ht, _⟩
    · exact absurd hc h
    · exact ⟨t, ht⟩
  obtain ⟨r1, r2, r3, g1, g2, g3, eb⟩ := buildTree_eq h1 h2 h3
  unfold fileOps at hc
  obtain ⟨t1, k1⟩ := run (hnc hc)
  rw [← List.append_assoc] at hc
  obtain ⟨t2, k2⟩ := run (hnc hc)
  obtain ⟨t3, k3⟩ := run hc
  rw [runOps_append, k2] at k3
  rw [runOps_append, k1] at k2
  simp only [bind, Except.bind] at k2 k3
  rw [eb]
  simp only [bind, Except.bind, k1]
  cases r1 with
  | error e => exact ⟨e, rfl, .inl (endIs_error g1)⟩
  | ok _ =>
    simp only [k2]
    cases r2 with
    | error e => exact ⟨e, rfl, .inr (.inl ⟨endIs_ok g1, endIs_error g2⟩)⟩
    | ok _ =>
      simp only [k3]
      cases r3 with
      | error e => exact ⟨e, rfl, .inr (.inr ⟨endIs_ok g1, endIs_ok g2, endIs_error g3⟩)⟩
      | ok _ => exact absurd ⟨endIs_ok g1, endIs_ok g2, endIs_ok g3⟩ hbad

/-- **C33.** From data files whose relevant entries are those of the Unicode 17 files, however these files are formatted and
delivered and whatever else they contain, the generator makes exactly the two tables that are committed. -/
theorem C33_reproducible (h1 : DataFile read rd1 .eof fuel es1 .complete) (h2 : DataFile read rd2 .eof fuel es2 .complete)
    (h3 : DataFile read rd3 .eof fuel es3 .complete) (h : ShippedEntries es1 es2 es3) :
    ∃ raw tab, BuildRawPropertyTree read fuel rd1 rd2 rd3 = .ok (.ok raw) ∧ outputIndices raw = .ok tab ∧
      (∀ i, goIndex tab i = lookupIndices.index i) ∧ ∀ i, goIndex (outputProps raw) i = lookupProps.index i := by
  obtain ⟨t, raw, k1, k2, k3, k4⟩ := build_shipped h
  refine ⟨raw, _, ?_, k3, index_eq _, ?_⟩
  · rw [build_complete h1 h2 h3, k1]
    simp only [bind, Except.bind, k2]
  · intro i
    rw [k4]
    exact index_eq _ i

/-! ## Files that meet the hypotheses -/

def shipped1 : List FileEntry := graphemeBreakProperty.map fun r => (r.1, r.2.1, [ascii r.2.2.ucdName])
/-- With an irrelevant entry. -/
def shipped2 : List FileEntry := (0x23, 0x23, [ascii "Emoji"]) ::
  extendedPictographic.map fun r => (r.1, r.2.1, [ascii "Extended_Pictographic"])
/-- With an irrelevant entry. -/
def shipped3 : List FileEntry := (0x2B, 0x7FFF, [ascii "Math"]) ::
  indicConjunctBreak.map fun r => (r.1, r.2.1, [ascii "InCB", ascii r.2.2.ucdName])

theorem shipped_entries : ShippedEntries shipped1 shipped2 shipped3 where
  gcb := by simp [shipped1, List.map_map, Function.comp_def]
  pict := by
    unfold shipped2
    rw [List.filter_cons, if_neg (by decide +kernel), List.filter_eq_self.mpr]
    · rw [List.map_map]; rfl
    · intro x hx
      obtain ⟨r, _, rfl⟩ := List.mem_map.mp hx
      simp
  incb := by
    unfold shipped3
    rw [List.filter_cons, if_neg (by decide +kernel), List.filter_eq_self.mpr]
    · rw [List.map_map]; rfl
    · intro x hx
      obtain ⟨r, _, rfl⟩ := List.mem_map.mp hx
      simp

theorem shipped_writable : ∀ x ∈ shipped1 ++ shipped2 ++ shipped3, Writable x := by
  have small : ∀ {α : Type} {rs : List (Nat × Nat × α)} (_ : scalarB rs = true) {r} (_ : r ∈ rs) (_ : r.1 ≤ r.2.1) (f),
      SmallEntry (r.1, r.2.1, f) := by
    intro α rs h r hr hle f
    have := scalarB_sound h hr hle (Nat.le_refl _)
    unfold Nat.isValidChar at this
    constructor <;> simp only <;> omega
  have ord : ∀ {α : Type} {rs : List (Nat × Nat × α)} (_ : rs.all (fun r => Nat.ble r.1 r.2.1) = true) {r} (_ : r ∈ rs), r.1 ≤ r.2.1 :=
    fun h _ hr => Nat.ble_eq.mp (List.all_eq_true.mp h _ hr)
  intro x hx
  rw [List.append_assoc, List.mem_append, List.mem_append] at hx
  rcases hx with hx | hx | hx
  · obtain ⟨r, hr, rfl⟩ := List.mem_map.mp hx
    refine ⟨small gcb_scalar hr (ord (by decide +kernel) hr) _, by simp, ?_, ?_⟩
    · simp only [List.mem_singleton, forall_eq]
      generalize r.2.2 = g
      cases g <;> decide +kernel
    · simp only
      generalize r.2.2 = g
      cases g <;> decide +kernel
  · rcases List.mem_cons.mp hx with rfl | hx
    · exact ⟨by unfold SmallEntry; decide, by simp, by decide +kernel, by decide +kernel⟩
    · obtain ⟨r, hr, rfl⟩ := List.mem_map.mp hx
      exact ⟨small pict_scalar hr (ord (by decide +kernel) hr) _, by simp, by simp only; decide +kernel, by simp only; decide +kernel⟩
  · rcases List.mem_cons.mp hx with rfl | hx
    · exact ⟨by unfold SmallEntry; decide, by simp, by decide +kernel, by decide +kernel⟩
    · obtain ⟨r, hr, rfl⟩ := List.mem_map.mp hx
      refine ⟨small incb_scalar hr (ord (by decide +kernel) hr) _, by simp, ?_, ?_⟩
      · simp only
        generalize r.2.2 = g
        cases g <;> decide +kernel
      · simp only
        generalize r.2.2 = g
        cases g <;> decide +kernel

/-- There are files as C33 and C44 require. -/
theorem shipped_files : ∃ fuel, DataFile bytesReader (renderFile shipped1) .eof fuel shipped1 .complete ∧
    DataFile bytesReader (renderFile shipped2) .eof fuel shipped2 .complete ∧
    DataFile bytesReader (renderFile shipped3) .eof fuel shipped3 .complete :=
  ⟨(renderFile shipped1).length + (renderFile shipped2).length + (renderFile shipped3).length + 1,
    render_dataFile (fun x hx => shipped_writable x (by simp [hx])) (by omega),
    render_dataFile (fun x hx => shipped_writable x (by simp [hx])) (by omega),
    render_dataFile (fun x hx => shipped_writable x (by simp [hx])) (by omega)⟩

/-- The hypotheses of C33 and of `C44_tables` are met, and the conditions in `C44_success` hold for these files. -/
example : ∃ fuel raw tab, BuildRawPropertyTree bytesReader fuel (renderFile shipped1) (renderFile shipped2) (renderFile shipped3) =
    .ok (.ok raw) ∧ outputIndices raw = .ok tab := by
  obtain ⟨fuel, h1, h2, h3⟩ := shipped_files
  obtain ⟨raw, tab, k1, k2, _⟩ := C33_reproducible h1 h2 h3 shipped_entries
  exact ⟨fuel, raw, tab, k1, k2⟩

/-- A malformed line in the first file: the hypotheses of `C44_error_returned` are met. -/
example : ∃ e, BuildRawPropertyTree bytesReader 100 (str "zz ; x") [] [] = .ok (.error e) := by
  have hm : IsMalformedLine (str "zz ; x") := by
    refine ⟨str "zz ", str "zz", str " x", ⟨by decide +kernel, Or.inl (by decide +kernel)⟩, by decide +kernel,
      padded_iff.mpr (by decide +kernel), fun lo hi h => ?_⟩
    have := rangeText_cut.mp h
    rw [show bytesCut (str "zz") rangeSeparator = (str "zz", [], false) by decide +kernel] at this
    simp only at this
    rw [show ParseUint (str "zz") = none by decide +kernel] at this
    cases this.1
  have h1 : DataFile bytesReader (str "zz ; x") .eof 100 [] (.malformed (str "zz ; x")) :=
    ⟨⟨_, [str "zz ; x"], .inl ⟨bytesReader_delivers _, .last _ (by decide +kernel) (by decide +kernel) (by decide +kernel),
      shortLines_of_length (by decide +kernel)⟩, .malformed _ _ hm, by decide +kernel⟩, by simp⟩
  have h2 : DataFile bytesReader [] .eof 100 [] .complete := render_dataFile (es := []) (by simp) (by decide)
  obtain ⟨e, h, _⟩ := C44_error_returned h1 h2 h2 (by rintro ⟨a, r, b, e, _⟩; simp [fileOps] at e) (by simp)
  exact ⟨e, h⟩

end Textseg.Gen
