import Verif.Proofs.TableText
import Verif.Props.GenFiles
/-!
# C53: the Go source that the generator prints

`generateMain read fuel rd1 rd2 rd3` is the text that generate.go passes to `format.Source`. `goTokens` and `tableFile`
(`Verif/Spec/GoSource.lean`) say how the Go compiler reads a text, and what the tokens of a file with two given tables are.
`Text.tableText` are the lines of the committed property_table_raw.go.
-/

namespace Textseg.Gen
open Textseg Spec Scanner

variable {σ : Type} {read : Reader σ} {rd1 rd2 rd3 : σ} {fuel : Nat} {es1 es2 es3 : List FileEntry}

/-- **C53.** What is printed reads as a file that declares the two tables, with exactly the elements of the tree. -/
theorem C53_printed (raw : RawPropertyTree) (src : List UInt8) (h : printSource raw = .ok src) :
    goTokens src = some (tableFile (raw.Indices.map UInt16.toNat) (raw.Properties.map UInt8.toNat)) := lex_source h

/-- **C53.** A source is printed exactly if every index fits in a byte; otherwise the generator panics and says so. -/
theorem C53_index_range (raw : RawPropertyTree) :
    ((∃ src, printSource raw = .ok src) ↔ ∀ v ∈ raw.Indices, v.toNat < 256) ∧
      ((∃ v ∈ raw.Indices, ¬ v.toNat < 256) → printSource raw = .error (.explicit "too many indices to use uint8")) := by
  have e : ∀ v : UInt16, v.toNat < 256 ↔ v ≤ 255 := by
    intro v
    rw [UInt16.le_iff_toNat_le]
    exact Nat.lt_succ_iff
  have g : ∀ v : UInt16, ¬ v.toNat < 256 → 255 < v := by
    intro v h
    rw [UInt16.lt_iff_toNat_lt]
    exact Nat.lt_of_not_le fun h' => h (Nat.lt_succ_of_le h')
  have p : (∃ v ∈ raw.Indices, ¬ v.toNat < 256) → printSource raw = .error (.explicit "too many indices to use uint8") := by
    rintro ⟨v, hv, h⟩
    exact source_panics raw ⟨v, hv, g v h⟩
  refine ⟨⟨?_, fun h => source_ok raw fun v hv => (e v).mp (h v hv)⟩, p⟩
  rintro ⟨src, h⟩ v hv
  refine Classical.byContradiction fun hn => ?_
  rw [p ⟨v, hv, hn⟩] at h
  cases h

theorem elems_inj : ∀ {a b : List Nat} {x y : List Tok}, (∀ n, x.head? ≠ some (.number n)) → (∀ n, y.head? ≠ some (.number n)) →
    a.flatMap (fun v => [.number v, .symbol (ascii ",")]) ++ x = b.flatMap (fun v => [.number v, .symbol (ascii ",")]) ++ y →
    a = b ∧ x = y
  | [], [], x, y, _, _, h => ⟨rfl, by simpa using h⟩
  | [], v :: b, x, y, hx, _, h => by
    simp only [List.flatMap_nil, List.nil_append, List.flatMap_cons, List.cons_append] at h
    exact absurd (by rw [h]; rfl) (hx v)
  | v :: a, [], x, y, _, hy, h => by
    simp only [List.flatMap_nil, List.nil_append, List.flatMap_cons, List.cons_append] at h
    exact absurd (by rw [← h]; rfl) (hy v)
  | v :: a, w :: b, x, y, hx, hy, h => by
    simp only [List.flatMap_cons, List.cons_append, List.nil_append, List.cons.injEq, Tok.number.injEq, true_and] at h
    obtain ⟨h1, h2⟩ := elems_inj hx hy h.2
    exact ⟨by rw [h.1, h1], h2⟩

/-- **C53.** The text determines the tables: different tables are never printed alike. -/
theorem C53_faithful (i1 p1 i2 p2 : List Nat) (h : tableFile i1 p1 = tableFile i2 p2) : i1 = i2 ∧ p1 = p2 := by
  unfold tableFile arrayDeclaration at h
  simp only [List.append_assoc, List.append_cancel_left_eq] at h
  obtain ⟨h1, h2⟩ := elems_inj (by intro n; simp) (by intro n; simp) h
  simp only [List.append_cancel_left_eq] at h2
  exact ⟨h1, (elems_inj (by intro n; simp) (by intro n; simp) h2).1⟩

theorem main_ok {src : List UInt8} (h : generateMain read fuel rd1 rd2 rd3 = .ok (.ok src)) :
    ∃ raw, BuildRawPropertyTree read fuel rd1 rd2 rd3 = .ok (.ok raw) ∧ printSource raw = .ok src := by
  unfold generateMain at h
  simp only [bind, Except.bind] at h
  cases hb : BuildRawPropertyTree read fuel rd1 rd2 rd3 with
  | error e => rw [hb] at h; cases h
  | ok r =>
    rw [hb] at h
    cases r with
    | error e => cases h
    | ok raw =>
      simp only at h
      cases hs : printSource raw with
      | error e => rw [hs] at h; cases h
      | ok s =>
        rw [hs] at h
        simp only [Except.ok.injEq] at h
        exact ⟨raw, rfl, by rw [hs, h]⟩

theorem output_of_source {raw : RawPropertyTree} {src : List UInt8} (h : printSource raw = .ok src) :
    outputIndices raw = .ok (raw.Indices.map UInt16.toUInt8) ∧
      (raw.Indices.map UInt16.toUInt8).map UInt8.toNat = raw.Indices.map UInt16.toNat := by
  have hr := ((C53_index_range raw).1.mp ⟨src, h⟩)
  refine ⟨?_, ?_⟩
  · rw [outputIndices, if_pos]
    rw [List.all_eq_true]
    intro v hv
    rw [decide_eq_true_eq, UInt16.le_iff_toNat_le]
    exact Nat.le_of_lt_succ (hr v hv)
  · rw [List.map_map]
    refine List.map_congr_left fun v hv => ?_
    have := hr v hv
    rw [Function.comp_apply, UInt16.toNat_toUInt8]
    omega

/-- **C53.** From complete data files to source text: if the generator prints a source, then a program with the tables that
this source declares finds, with `LookupFirstChar`, for every character the properties that the files list for it. (U+FFFD as
in `C44_tables`.) -/
theorem C53_main (h1 : DataFile read rd1 .eof fuel es1 .complete) (h2 : DataFile read rd2 .eof fuel es2 .complete)
    (h3 : DataFile read rd3 .eof fuel es3 .complete) (src : List UInt8)
    (h : generateMain read fuel rd1 rd2 rd3 = .ok (.ok src)) :
    ∃ indices props : List UInt8, goTokens src = some (tableFile (indices.map UInt8.toNat) (props.map UInt8.toNat)) ∧
      ∀ c : Char, (c ≠ '\uFFFD' ∨ ∀ x ∈ es1 ++ es2 ++ es3, ∀ n, x.1 ≤ n → n ≤ x.2.1 → n.isValidChar) → ∀ rest,
        LookupFirstCharIn (goIndex indices) (goIndex props) (String.utf8EncodeChar c ++ rest) =
          .ok (listedProps LookupGCBProperty LookupInCBProperty es1 es2 es3 c.val.toNat, (String.utf8EncodeChar c).length) := by
  obtain ⟨raw, hb, hs⟩ := main_ok h
  obtain ⟨ho, e⟩ := output_of_source hs
  refine ⟨_, outputProps raw, ?_, fun c hc rest => C44_tables h1 h2 h3 raw _ hb ho c hc rest⟩
  rw [e]
  exact C53_printed raw src hs

/-- **C53.** From files of which one is malformed, has an overlong line or cannot be read to its end no source is printed. -/
theorem C53_no_source_from_bad_file {E1 E2 E3 : IOErr} {fe1 fe2 fe3 : FileEnd} (h1 : DataFile read rd1 E1 fuel es1 fe1)
    (h2 : DataFile read rd2 E2 fuel es2 fe2) (h3 : DataFile read rd3 E3 fuel es3 fe3) (src : List UInt8)
    (h : generateMain read fuel rd1 rd2 rd3 = .ok (.ok src)) :
    (fe1 = .complete ∧ E1 = .eof) ∧ (fe2 = .complete ∧ E2 = .eof) ∧ (fe3 = .complete ∧ E3 = .eof) := by
  obtain ⟨raw, hb, _⟩ := main_ok h
  exact C44_no_table_from_bad_file h1 h2 h3 raw hb

/-- **C53.** From data files whose relevant entries are those of the Unicode 17 files, the generator prints a source with
exactly the tokens of the committed file. -/
theorem C53_committed_source (h1 : DataFile read rd1 .eof fuel es1 .complete) (h2 : DataFile read rd2 .eof fuel es2 .complete)
    (h3 : DataFile read rd3 .eof fuel es3 .complete) (h : ShippedEntries es1 es2 es3) :
    ∃ src, generateMain read fuel rd1 rd2 rd3 = .ok (.ok src) ∧ (goTokens src).isSome ∧
      goTokens src = goTokens (textFile Text.tableText.flatten) := by
  obtain ⟨t, raw, k1, k2, k3, k4⟩ := build_shipped h
  have hb : BuildRawPropertyTree read fuel rd1 rd2 rd3 = .ok (.ok raw) := by
    rw [build_complete h1 h2 h3, k1]
    simp only [bind, Except.bind, k2]
  have hr : ∀ v ∈ raw.Indices, v.toNat < 256 := by
    intro v hv
    unfold outputIndices at k3
    split at k3
    · rename_i hall
      have := List.all_eq_true.mp hall v hv
      rw [decide_eq_true_eq, UInt16.le_iff_toNat_le] at this
      exact Nat.lt_succ_of_le this
    · cases k3
  obtain ⟨src, hs⟩ := (C53_index_range raw).1.mpr hr
  obtain ⟨ho, e⟩ := output_of_source hs
  rw [ho, Except.ok.injEq] at k3
  refine ⟨src, ?_, ?_, ?_⟩
  · unfold generateMain
    simp only [bind, Except.bind, hb, hs]
  · rw [C53_printed raw src hs]; rfl
  · rw [C53_printed raw src hs, table_text, ← e, k3, show raw.Properties = tableBytes lookupProps from k4]

/-! ## Cases that meet the hypotheses -/

/-- Two rows of indices, one incomplete, and one of properties. -/
def exampleRaw : RawPropertyTree := { Indices := [0, 1, 2, 3, 4, 5, 6, 7, 0xAB], Properties := [0xFF, 9] }

example : printSource exampleRaw = .ok (ascii "// Generated by generate.go. DO NOT EDIT!\n\npackage charprops\n\nvar lookupIndices = [...]uint8{\n  // block 0x0000\n\t0x00,0x01,0x02,0x03,0x04,0x05,0x06,0x07,\n\t0xab,\n}\nvar lookupProps = [...]CharProperties{\n  // block 0x0000\n\t0xff,0x09,\n}\n") := by
  decide +kernel

example : goTokens (ascii "x = 0x1f // end\n\n}") = some [.word (ascii "x"), .symbol (ascii "="), .number 31, .semicolon, .symbol (ascii "}"), .semicolon] := by
  decide +kernel

/-- A table with an index that does not fit. -/
example : printSource { Indices := [0, 256], Properties := [] } = .error (.explicit "too many indices to use uint8") := by decide +kernel

/-- There are files from which a source is printed. -/
example : ∃ fuel src, generateMain bytesReader fuel (renderFile shipped1) (renderFile shipped2) (renderFile shipped3) = .ok (.ok src) := by
  obtain ⟨fuel, h1, h2, h3⟩ := shipped_files
  obtain ⟨src, h, _⟩ := C53_committed_source h1 h2 h3 shipped_entries
  exact ⟨fuel, src, h⟩

end Textseg.Gen
