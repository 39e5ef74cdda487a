import Verif.Proofs.Report
import Verif.Props.Names
import Verif.Props.Split
/-!
# Tokens and Go's own decoding of UTF-8 (C57); the report of a failing conformance test (C58)

`runes data` are the runes, with their widths, that `for len(data) > 0 { r, n := utf8.DecodeRune(data); data = data[n:] }`
yields (the same as `for range string(data)`).
-/

namespace Textseg.Props
open Textseg Spec

/-! ## C57 -/

/-- C57: what Go sees in any byte string: characters in UTF-8 and, elsewhere, single bytes. -/
theorem C57_decoding (data : List UInt8) : ∃ rs, GoChars data rs ∧ (∀ rs', GoChars data rs' → rs' = rs) ∧
    (rs.map Prod.snd).flatten = data ∧ runes data = .ok (rs.map fun x => (x.1.val.toNat, x.2.length)) := by
  obtain ⟨rs, h⟩ := goChars_total data
  exact ⟨rs, h, fun _ h' => goChars_unique h' h, goChars_bytes h, runes_eq h⟩

example : DecodeRune [0xC3, 0xB7, 0x41] = (0xF7, 2) ∧ DecodeRune [0xE2, 0x82, 0xAC] = (0x20AC, 3) ∧
    DecodeRune [0xF0, 0x9F, 0x98, 0x80] = (0x1F600, 4) ∧ DecodeRune [0xED, 0xA0, 0x80] = (0xFFFD, 1) := by decide +kernel

/-- C57: for any bytes, the characters that Go sees in the tokens, put together, are those it sees in the whole: no token
boundary splits or creates a character, not even in invalid input. -/
theorem C57_tokens (data : List UInt8) (toks : List (List UInt8)) (ht : tokens data = .ok toks) :
    ∃ rss, ForallTwo GoChars toks rss ∧ GoChars data rss.flatten := goChars_tokens ht

theorem forallTwo_runes {toks : List (List UInt8)} {rss : List (List (Char × List UInt8))} (h : ForallTwo GoChars toks rss) :
    toks.mapM runes = .ok (rss.map fun rs => rs.map fun x => (x.1.val.toNat, x.2.length)) := by
  induction h with
  | nil => rfl
  | cons a b as bs h1 h2 ih =>
    rw [List.mapM_cons, runes_eq h1, ih]
    rfl

/-- C57: the same, as the decoder reports it: runes and widths; so also `utf8.RuneCount` adds up. -/
theorem C57_rune_by_rune (data : List UInt8) (toks : List (List UInt8)) (ht : tokens data = .ok toks) :
    ∃ rs rss, runes data = .ok rs ∧ toks.mapM runes = .ok rss ∧ rs = rss.flatten ∧ rs.length = (rss.map List.length).sum := by
  obtain ⟨rss, h1, h2⟩ := goChars_tokens ht
  refine ⟨_, _, runes_eq h2, forallTwo_runes h1, ?_, ?_⟩
  · rw [List.map_flatten]
  · rw [List.map_flatten, List.length_flatten]

/-- C57: the input is valid UTF-8 exactly if every token is. -/
theorem C57_validity (data : List UInt8) (toks : List (List UInt8)) (ht : tokens data = .ok toks) :
    ValidUTF8 data ↔ ∀ t ∈ toks, ValidUTF8 t := by
  constructor
  · rintro ⟨cs, rfl⟩ t h
    obtain ⟨segs, _, h2⟩ := C05_conforms_to_UAX29 cs
    rw [ht] at h2
    cases h2
    obtain ⟨seg, _, rfl⟩ := List.mem_map.mp h
    exact ⟨seg, rfl⟩
  · intro h
    have hc : toks.flatten = data := by
      obtain ⟨toks', h1, h2, -⟩ := C04_tokens_partition_input data
      rw [ht] at h1
      cases h1
      exact h2
    rw [← hc]
    clear ht hc
    induction toks with
    | nil => exact ⟨[], rfl⟩
    | cons t toks ih =>
      obtain ⟨a, ha⟩ := h t (by simp)
      obtain ⟨b, hb⟩ := ih fun t ht => h t (List.mem_cons_of_mem _ ht)
      exact ⟨a ++ b, by rw [List.flatten_cons, ha, hb]; simp [utf8]⟩

/-- A surrogate (one token for this library, three invalid bytes for Go) with a combining mark, a left-over byte, "é". -/
example : tokens [0xED, 0xA0, 0x80, 0xCC, 0x81, 0x80, 0xC3, 0xA9] = .ok [[0xED, 0xA0, 0x80, 0xCC, 0x81], [0x80], [0xC3, 0xA9]] ∧
    runes [0xED, 0xA0, 0x80, 0xCC, 0x81, 0x80, 0xC3, 0xA9] =
      .ok [(0xFFFD, 1), (0xFFFD, 1), (0xFFFD, 1), (0x301, 2), (0xFFFD, 1), (0xE9, 2)] ∧
    runes [0xED, 0xA0, 0x80, 0xCC, 0x81] = .ok [(0xFFFD, 1), (0xFFFD, 1), (0xFFFD, 1), (0x301, 2)] := by decide +kernel

/-! ## C58 -/

theorem forallTwo_map {α β : Type} {R : β → α → Prop} {f : α → β} (h : ∀ a, R (f a) a) (l : List α) : ForallTwo R (l.map f) l := by
  induction l with
  | nil => exact .nil
  | cons a l ih => exact .cons _ _ _ _ (h a) ih

/-- C58: for any input, reporting a failure comes to an end without a panic, and its "utf8s" are the bytes of the characters
that Go sees in it, which together are the input; there are as many "runes" and "cats". -/
theorem C58_any_input (data : List UInt8) : ∃ xs rs cats, GoChars data xs ∧ diagnose data = .ok (rs, xs.map Prod.snd, cats) ∧
    (xs.map Prod.snd).flatten = data ∧ (∀ s ∈ xs.map Prod.snd, s ≠ []) ∧ ForallTwo (fun r x => IsCodePointText r x.1) rs xs ∧
    cats.length = xs.length := by
  obtain ⟨xs, h⟩ := goChars_total data
  obtain ⟨cats, h1, h2⟩ := diagnoseLoop_any h (data.length + 1) (by omega)
  refine ⟨xs, _, cats, h, h1, goChars_bytes h, ?_, forallTwo_map (fun x => codePointText x.1) xs, h2⟩
  clear h1 h2
  induction h with
  | nil => simp
  | char c rest rs h ih =>
    intro s hs
    rcases List.mem_cons.mp hs with rfl | hs
    · exact utf8_one_ne c
    · exact ih s hs
  | bad b rest rs h0 h ih =>
    intro s hs
    rcases List.mem_cons.mp hs with rfl | hs
    · simp
    · exact ih s hs

/-- C58: for a text, the report lists its characters: their bytes, their code points and their properties. -/
theorem C58_characters (cs : List Char) : ∃ rs, ForallTwo IsCodePointText rs cs ∧
    diagnose (utf8 cs) = .ok (rs, cs.map fun c => utf8 [c], cs.map fun c => str (ucd c.val.toNat).text) :=
  ⟨_, forallTwo_map codePointText cs, diagnoseLoop_utf8 cs _ (by omega)⟩

theorem hex_lower (b : UInt8) : ∀ d ∈ (sprintf0x02x b).drop 2, d ∈ str "0123456789abcdef" := by
  have h : ∀ n : Fin 256, ∀ d ∈ (sprintf0x02x (UInt8.ofNat n.val)).drop 2, d ∈ str "0123456789abcdef" := by decide +kernel
  have := h ⟨b.toNat, b.toNat_lt⟩
  simpa using this

/-- C58: how bytes are shown: in lower-case hexadecimal, with two digits. -/
theorem C58_bytes (buf : List UInt8) (bufs : List (List UInt8)) :
    (∃ items, ForallTwo (fun s b => ∃ ds, s = str "0x" ++ ds ∧ IsHex ds b.toNat ∧ ds.length = 2 ∧
        ∀ d ∈ ds, d ∈ str "0123456789abcdef") items buf ∧
      formatBytes buf = (str "   ").intercalate items) ∧
    formatByteRanges bufs = (str " | ").intercalate (bufs.map formatBytes) := by
  refine ⟨⟨_, forallTwo_map (fun b => ?_) buf, stringsJoin_eq _ _⟩, stringsJoin_eq _ _⟩
  obtain ⟨ds, h1, h2, h3⟩ := hex_form b
  refine ⟨ds, h1, h3, h2.1, ?_⟩
  have := hex_lower b
  rw [h1] at this
  exact this

/-- C58: different lists of segments are shown differently. -/
theorem C58_segments_identified (l l' : List (List UInt8)) (h : ∀ t ∈ l, t ≠ []) (h' : ∀ t ∈ l', t ≠ [])
    (he : formatByteRanges l = formatByteRanges l') : l = l' := formatByteRanges_injective _ l l' (Nat.le_refl _) h h' he

/-- Segments must not be empty for that. -/
example : formatByteRanges [[]] = formatByteRanges [] := by decide +kernel

/-- C58: a subtest prints a report exactly if it fails. -/
theorem C58_report_iff_failure (test : TestDataEntry) :
    (∀ r, reportWhole test = .ok r → subtestWhole test = .ok r.isNone) ∧
    (∀ r, reportPartial test = .ok r → subtestPartial test = .ok r.isNone) := by
  constructor
  · intro r h
    unfold reportWhole at h
    unfold subtestWhole
    cases h1 : allTokens test.Input ScanGraphemeClusters with
    | error e => rw [h1] at h; cases h
    | ok x =>
      obtain ⟨got, err⟩ := x
      simp only [h1, bind, Except.bind] at h ⊢
      cases err with
      | some e => cases h; rfl
      | none =>
        simp only [bne_self_eq_false, Bool.false_eq_true, if_false] at h
        split at h
        · next h2 => cases h; simp [h2]
        · next h2 =>
          cases h3 : failureReport test got with
          | error e => rw [h3] at h; cases h
          | ok msg => rw [h3] at h; cases h; simp [h2]
  · intro r h
    unfold reportPartial at h
    unfold subtestPartial
    cases h1 : collectRefs ScanGraphemeClusters dripReader maxScanTokenSize (test.Input.length + 1) (newScanner test.Input 0) with
    | error e => rw [h1] at h; cases h
    | ok x =>
      obtain ⟨refs, s⟩ := x
      simp only [h1, bind, Except.bind] at h ⊢
      cases h2 : refs.mapM (SliceRef.read s.heap) with
      | error e => rw [h2] at h; cases h
      | ok got =>
        simp only [h2] at h ⊢
        cases h4 : s.Err with
        | some e => rw [h4] at h; cases h; rfl
        | none =>
          simp only [h4, bne_self_eq_false, Bool.false_eq_true, if_false] at h
          split at h
          · next h2 => cases h; simp [h2]
          · next h2 =>
            cases h3 : failureReport test got with
            | error e => rw [h3] at h; cases h
            | ok msg => rw [h3] at h; cases h; simp [h2]

/-- C58: the report of a subtest for a line of test cases (whose text has at most 2049 bytes) with wrong segments: the
message shows the text and its characters, the tokens that the library finds and the wanted segments, and the last two lines
differ. -/
theorem C58_report (segs : List (List Char)) (hn : (utf8 segs.flatten).length ≤ 2049) (hne : ∀ s ∈ segs, s ≠ [])
    (hbad : ¬ IsSegmentation CharBoundary segs.flatten segs)
    (report : TestDataEntry → Go (Option GoString)) (hrep : report = reportWhole ∨ report = reportPartial) :
    ∃ toks rs, tokens (utf8 segs.flatten) = .ok toks ∧ ForallTwo IsCodePointText rs segs.flatten ∧
      formatByteRanges toks ≠ formatByteRanges (segs.map utf8) ∧
      report { Input := utf8 segs.flatten, WantSegments := segs.map utf8 } = .ok (some
        (str "wrong result\ninput: " ++ formatBytes (utf8 segs.flatten) ++
         str "\nutf8s: " ++ formatByteRanges (segs.flatten.map fun c => utf8 [c]) ++
         str "\nrunes: " ++ (str " ").intercalate rs ++
         str "\ncats:  " ++ (str " ").intercalate (segs.flatten.map fun c => str (ucd c.val.toNat).text) ++
         str "\ngot:   " ++ formatByteRanges toks ++
         str "\nwant:  " ++ formatByteRanges (segs.map utf8))) := by
  obtain ⟨toks, ht⟩ := tokens_ok (utf8 segs.flatten)
  obtain ⟨rs, h1, h2⟩ := C58_characters segs.flatten
  have hw : toks ≠ segs.map utf8 := fun h => hbad ((wanted_iff ht).mp h)
  have hrpt : failureReport { Input := utf8 segs.flatten, WantSegments := segs.map utf8 } toks = .ok
      (str "wrong result\ninput: " ++ formatBytes (utf8 segs.flatten) ++
         str "\nutf8s: " ++ formatByteRanges (segs.flatten.map fun c => utf8 [c]) ++
         str "\nrunes: " ++ (str " ").intercalate rs ++
         str "\ncats:  " ++ (str " ").intercalate (segs.flatten.map fun c => str (ucd c.val.toNat).text) ++
         str "\ngot:   " ++ formatByteRanges toks ++
         str "\nwant:  " ++ formatByteRanges (segs.map utf8)) := by
    unfold failureReport
    simp only [h2, bind, Except.bind, stringsJoin_eq]
  refine ⟨toks, rs, ht, h1, ?_, ?_⟩
  · intro he
    refine hw (C58_segments_identified _ _ ?_ ?_ he)
    · obtain ⟨toks', g1, -, g2⟩ := C04_tokens_partition_input (utf8 segs.flatten)
      rw [ht] at g1
      cases g1
      exact g2
    · intro t h
      obtain ⟨s, hs, rfl⟩ := List.mem_map.mp h
      intro h0
      cases s with
      | nil => exact hne [] hs rfl
      | cons c s =>
        have : utf8 [c] ++ utf8 s = [] := by rw [← h0]; simp [utf8]
        exact utf8_one_ne c (List.append_eq_nil_iff.mp this).1
  · rcases hrep with rfl | rfl
    · unfold reportWhole
      simp only [bind, Except.bind, C38_all_tokens_partial _ hn toks ht, bne_self_eq_false, Bool.false_eq_true, if_false]
      rw [if_neg (by simpa using hw), hrpt]
    · obtain ⟨refs, s', g1, g2, g3⟩ := C51_kept_slices dripReader .eof _ _ (by simp) hn (dripReader_delivers _) toks ht
        ((utf8 segs.flatten).length + 1) (by omega)
      replace g3 : s'.Err = none := g3
      unfold reportPartial
      simp only [bind, Except.bind, g1, g2, g3, bne_self_eq_false, Bool.false_eq_true, if_false]
      rw [if_neg (by simpa using hw), hrpt]

/-- The hypotheses are met by the segments "CR" "LF" (which belong together). -/
example : (utf8 [['\r'], ['\n']].flatten).length ≤ 2049 ∧ (∀ s ∈ [['\r'], ['\n']], s ≠ []) ∧
    ¬ IsSegmentation CharBoundary [['\r'], ['\n']].flatten [['\r'], ['\n']] := by
  refine ⟨by decide, by decide, fun h => ?_⟩
  have ht : tokens (utf8 [['\r'], ['\n']].flatten) = .ok [[0x0D, 0x0A]] := by decide +kernel
  exact absurd ((wanted_iff ht).mpr h) (by decide)

/-- The report for the (wrong) line "÷ 000D × 0A15 ÷". -/
example : reportWhole { Input := [0x0D, 0xE0, 0xA8, 0x95], WantSegments := [[0x0D, 0xE0, 0xA8, 0x95]] } = .ok (some (str
    "wrong result\ninput: 0x0d   0xe0   0xa8   0x95\nutf8s: 0x0d | 0xe0   0xa8   0x95\nrunes: 0x000d 0x0a15\ncats:  CR None\ngot:   0x0d | 0xe0   0xa8   0x95\nwant:  0x0d   0xe0   0xa8   0x95")) := by
  decide +kernel

end Textseg.Props
