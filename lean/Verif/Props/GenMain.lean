import Verif.Proofs.GenMain
import Verif.Props.Committed
/-!
# C65: the generator as a command

`main os formatSource fuel` is the run of `go run generate.go`: the list of what it does to the outside world, and how it ends.
`os` is what the operating system answers, `formatSource` is go/format. `contentAfter`, `Missing`, `Holds`, `Complete`, `FirstBad` and `KeepsTokens`
are from `Verif/Spec/GenMain.lean`.
-/

namespace Textseg.Gen
open Textseg Spec Scanner

variable {σ : Type} {os : OS σ} {formatSource : GoString → Except String GoString} {fuel : Nat}

/-- **C65.** Whatever the operating system answers and wherever the run is interrupted (by a crash, a kill or a power failure: any
prefix of its effects): property_table_raw.go is as it was before; or all three data files have been opened and read, the complete
source has been made from them and formatted, and the file is a beginning of that text. -/
theorem C65_crash_points (old : Option (List UInt8)) (part : List Event) (h : part <+: (main os formatSource fuel).1) :
    contentAfter tablePath old part = old ∨
    ∃ rd1 rd2 rd3 buf src done, os.openFile gbpPath = .ok rd1 ∧ os.openFile emojiPath = .ok rd2 ∧ os.openFile dcpPath = .ok rd3 ∧
      generateMain os.read fuel rd1 rd2 rd3 = .ok (.ok buf) ∧ formatSource buf = .ok src ∧
      contentAfter tablePath old part = some done ∧ done <+: src := by
  rcases content_of_prefix (main_shape os formatSource fuel) h old with h | ⟨rd1, rd2, rd3, raw, buf, src, k, o1, o2, o3, hb, hs, hf, _, _, hc, _⟩
  · exact .inl h
  · refine .inr ⟨rd1, rd2, rd3, buf, src, _, o1, o2, o3, ?_, hf, hc, List.take_prefix k src⟩
    unfold generateMain
    simp only [bind, Except.bind, hb, hs]

/-- **C65.** No other file is ever changed, and only the three data files are opened. -/
theorem C65_other_files (path : String) (hp : path ≠ "property_table_raw.go") (old : Option (List UInt8)) (part : List Event)
    (h : part <+: (main os formatSource fuel).1) :
    contentAfter path old part = old ∧ ∀ p, .opened p ∈ part →
      p ∈ ["ucd/auxiliary/GraphemeBreakProperty.txt", "ucd/emoji/emoji-data.txt", "ucd/DerivedCoreProperties.txt"] := by
  have key : ∀ evs : List Event, (∀ ev ∈ evs, Harmless ev ∨ ev = .created tablePath ∨ ∃ b, ev = .stored tablePath b) →
      ∀ c, contentAfter path c evs = c := by
    intro evs
    induction evs with
    | nil => intro _ c; rfl
    | cons ev evs ih =>
      intro hev c
      have ih := ih (fun x hx => hev x (List.mem_cons_of_mem _ hx)) c
      have hne : ¬ tablePath = path := fun e => hp e.symm
      rcases hev ev (by simp) with (⟨p, rfl⟩ | ⟨e, rfl⟩) | rfl | ⟨b, rfl⟩
      · exact ih
      · exact ih
      · simp only [contentAfter, if_neg hne]; exact ih
      · simp only [contentAfter, if_neg hne]; exact ih
  have kinds : ∀ ev ∈ (main os formatSource fuel).1, IsOpening ev ∨ (∃ e, ev = .message e) ∨ ev = .created tablePath ∨
      ∃ b, ev = .stored tablePath b := by
    have := main_shape os formatSource fuel
    generalize (main os formatSource fuel).1 = evs, (main os formatSource fuel).2 = ex at this
    cases this with
    | panicked pre p h1 => exact fun ev hm => .inl (h1 ev hm)
    | failed pre e h1 =>
      intro ev hm
      rw [List.mem_append] at hm
      rcases hm with hm | hm
      · exact .inl (h1 ev hm)
      · exact .inr (.inl ⟨e, by simpa using hm⟩)
    | done pre rd1 rd2 rd3 raw buf src h1 =>
      intro ev hm
      rw [List.mem_append, List.mem_cons, List.mem_map] at hm
      rcases hm with hm | hm | ⟨b, _, hm⟩
      · exact .inl (h1 ev hm)
      · exact .inr (.inr (.inl hm))
      · exact .inr (.inr (.inr ⟨b, hm.symm⟩))
  obtain ⟨t, ht⟩ := h
  have kp : ∀ ev ∈ part, _ := fun ev hm => kinds ev (by rw [← ht]; simp [hm])
  constructor
  · refine key part (fun ev hm => ?_) old
    rcases kp ev hm with h | h | h | h
    · exact .inl h.harmless
    · exact .inl (.inr h)
    · exact .inr (.inl h)
    · exact .inr (.inr h)
  · intro p hm
    rcases kp _ hm with (h | h | h) | ⟨e, h⟩ | h | ⟨b, h⟩ <;> simp only [Event.opened.injEq, reduceCtorEq] at h
    · simp [h, gbpPath]
    · simp [h, emojiPath]
    · simp [h, dcpPath]

variable {E1 E2 E3 : IOErr} {es1 es2 es3 : List FileEntry} {fe1 fe2 fe3 : FileEnd}

/-- **C65.** If one of the data files is missing, or one of them has a malformed or an overlong line or cannot be read to its end,
property_table_raw.go is never touched, and the run does not end with the status 0. -/
theorem C65_bad_input (h : Missing os gbpPath ∨ Missing os emojiPath ∨ Missing os dcpPath ∨
      (Holds os fuel gbpPath E1 es1 fe1 ∧ Holds os fuel emojiPath E2 es2 fe2 ∧ Holds os fuel dcpPath E3 es3 fe3 ∧
        ¬ (Complete E1 fe1 ∧ Complete E2 fe2 ∧ Complete E3 fe3)))
    (old : Option (List UInt8)) (part : List Event) (hp : part <+: (main os formatSource fuel).1) :
    contentAfter tablePath old part = old ∧ (main os formatSource fuel).2 ≠ .status 0 := by
  have no : ∀ {rd1 rd2 rd3 raw}, os.openFile gbpPath = .ok rd1 → os.openFile emojiPath = .ok rd2 → os.openFile dcpPath = .ok rd3 →
      BuildRawPropertyTree os.read fuel rd1 rd2 rd3 = .ok (.ok raw) → False := by
    intro rd1 rd2 rd3 raw o1 o2 o3 hb
    rcases h with ⟨m, h⟩ | ⟨m, h⟩ | ⟨m, h⟩ | ⟨⟨r1, p1, d1⟩, ⟨r2, p2, d2⟩, ⟨r3, p3, d3⟩, hbad⟩
    · rw [o1] at h; cases h
    · rw [o2] at h; cases h
    · rw [o3] at h; cases h
    · rw [o1, Except.ok.injEq] at p1
      rw [o2, Except.ok.injEq] at p2
      rw [o3, Except.ok.injEq] at p3
      subst p1 p2 p3
      exact hbad (C44_no_table_from_bad_file d1 d2 d3 raw hb)
  have hm := main_shape os formatSource fuel
  constructor
  · rcases content_of_prefix hm hp old with h | ⟨_, _, _, _, _, _, _, o1, o2, o3, hb, _⟩
    · exact h
    · exact absurd (no o1 o2 o3 hb) id
  · intro he
    rw [he] at hm
    generalize (main os formatSource fuel).1 = evs at hm
    cases hm with
    | done pre rd1 rd2 rd3 raw buf src _ o1 o2 o3 hb => exact no o1 o2 o3 hb

/-- **C65.** If the data files can be opened and do not contradict each other, but are not all complete, the status is 1, and the last
thing the run does is to print the error that it has met in the first file that is not complete, with the name of that file. -/
theorem C65_message (h1 : Holds os fuel gbpPath E1 es1 fe1) (h2 : Holds os fuel emojiPath E2 es2 fe2)
    (h3 : Holds os fuel dcpPath E3 es3 fe3) (hc : ¬ Conflict (fileOps LookupGCBProperty LookupInCBProperty es1 es2 es3))
    (hbad : ¬ (Complete E1 fe1 ∧ Complete E2 fe2 ∧ Complete E3 fe3)) :
    (main os formatSource fuel).2 = .status 1 ∧
      ∃ e, (main os formatSource fuel).1.getLast? = some (.message e) ∧ FirstBad E1 E2 E3 fe1 fe2 fe3 e := by
  obtain ⟨rd1, o1, d1⟩ := h1
  obtain ⟨rd2, o2, d2⟩ := h2
  obtain ⟨rd3, o3, d3⟩ := h3
  obtain ⟨e, he, hf⟩ := readTree_bad d1 d2 d3 hc hbad
  have : main os formatSource fuel = ([.opened gbpPath, .opened emojiPath, .opened dcpPath] ++ [.message e], .status 1) := by
    unfold main buildTree
    simp only [o1, o2, o3, he]
  rw [this]
  exact ⟨rfl, e, by simp, hf⟩

/-- **C65.** A missing file: the run prints an error about the first file that is missing, and the status is 1. -/
theorem C65_missing :
    (Missing os gbpPath → ∃ m, main os formatSource fuel = ([.message (.os gbpPath m)], .status 1)) ∧
    ((∃ rd, os.openFile gbpPath = .ok rd) → Missing os emojiPath →
      ∃ m, main os formatSource fuel = ([.opened gbpPath, .message (.os emojiPath m)], .status 1)) ∧
    ((∃ rd, os.openFile gbpPath = .ok rd) → (∃ rd, os.openFile emojiPath = .ok rd) → Missing os dcpPath →
      ∃ m, main os formatSource fuel = ([.opened gbpPath, .opened emojiPath, .message (.os dcpPath m)], .status 1)) := by
  refine ⟨?_, ?_, ?_⟩
  · rintro ⟨m, h⟩
    exact ⟨m, by unfold main buildTree; simp only [h]; rfl⟩
  · rintro ⟨rd, o1⟩ ⟨m, h⟩
    exact ⟨m, by unfold main buildTree; simp only [o1, h]; rfl⟩
  · rintro ⟨rd, o1⟩ ⟨rd2, o2⟩ ⟨m, h⟩
    exact ⟨m, by unfold main buildTree; simp only [o1, o2, h]; rfl⟩

/-- **C65.** The status is 0 exactly if the run has replaced property_table_raw.go, 1 exactly if it has printed an error; it never
does both, and there is no other status (besides that of a panic, with neither). -/
theorem C65_status :
    ((main os formatSource fuel).2 = .status 0 ↔ .created tablePath ∈ (main os formatSource fuel).1) ∧
    ((main os formatSource fuel).2 = .status 1 ↔ ∃ e, .message e ∈ (main os formatSource fuel).1) ∧
    ∀ n, (main os formatSource fuel).2 = .status n → n = 0 ∨ n = 1 := by
  have hm := main_shape os formatSource fuel
  generalize (main os formatSource fuel).1 = evs, (main os formatSource fuel).2 = ex at hm
  have nc : ∀ pre : List Event, (∀ ev ∈ pre, IsOpening ev) → (.created tablePath ∉ pre ∧ ∀ e, .message e ∉ pre) := by
    intro pre h
    refine ⟨fun hm => ?_, fun e hm => ?_⟩ <;> rcases h _ hm with h | h | h <;> cases h
  cases hm with
  | panicked _ p h1 =>
    obtain ⟨n1, n2⟩ := nc _ h1
    refine ⟨⟨fun h => (by cases h), fun h => absurd h n1⟩, ⟨fun h => (by cases h), fun ⟨e, h⟩ => absurd h (n2 e)⟩, fun n h => (by cases h)⟩
  | failed pre e h1 =>
    obtain ⟨n1, n2⟩ := nc pre h1
    refine ⟨⟨fun h => (by cases h), fun h => ?_⟩, ⟨fun _ => ⟨e, by simp⟩, fun _ => rfl⟩, fun n h => (by cases h; exact .inr rfl)⟩
    rw [List.mem_append] at h
    rcases h with h | h
    · exact absurd h n1
    · simp at h
  | done pre rd1 rd2 rd3 raw buf src h1 =>
    obtain ⟨n1, n2⟩ := nc pre h1
    refine ⟨⟨fun _ => (by simp), fun _ => rfl⟩, ⟨fun h => (by cases h), ?_⟩, fun n h => (by cases h; exact .inl rfl)⟩
    rintro ⟨e, h⟩
    rw [List.mem_append] at h
    rcases h with h | h
    · exact absurd h (n2 e)
    · rw [List.mem_cons, List.mem_map] at h
      rcases h with h | ⟨_, _, h⟩ <;> cases h

/-- **C65.** The status says nothing about whether the text has been written: `main` ignores the result of `Write`. However many bytes
the operating system has accepted, the status is the same, and if it is 0 the file has just these bytes. -/
theorem C65_write_ignored (accepted : List UInt8 → Nat) (old : Option (List UInt8)) :
    (main { os with write := accepted } formatSource fuel).2 = (main os formatSource fuel).2 ∧
    ((main os formatSource fuel).2 = .status 0 → ∃ src, (∃ rd1 rd2 rd3 buf, os.openFile gbpPath = .ok rd1 ∧
      os.openFile emojiPath = .ok rd2 ∧ os.openFile dcpPath = .ok rd3 ∧ generateMain os.read fuel rd1 rd2 rd3 = .ok (.ok buf) ∧
      formatSource buf = .ok src) ∧
      contentAfter tablePath old (main { os with write := accepted } formatSource fuel).1 = some (src.take (accepted src))) := by
  have e : (main { os with write := accepted } formatSource fuel).2 = (main os formatSource fuel).2 := by
    have hb : buildTree { os with write := accepted } fuel = buildTree os fuel := rfl
    unfold main
    rw [hb]
    split
    · rfl
    · rfl
    · split
      · rfl
      · simp only [writeTable]
        split
        · rfl
        · split <;> rfl
  refine ⟨e, fun h => ?_⟩
  rw [← e] at h
  have hm := main_shape { os with write := accepted } formatSource fuel
  rw [h] at hm
  generalize (main { os with write := accepted } formatSource fuel).1 = evs at hm
  cases hm with
  | done pre rd1 rd2 rd3 raw buf src h1 o1 o2 o3 hb hs hf hc =>
    refine ⟨src, ⟨rd1, rd2, rd3, buf, o1, o2, o3, ?_, hf⟩, ?_⟩
    · unfold generateMain
      simp only [bind, Except.bind, hb, hs]
    · rw [contentAfter_append, contentAfter_harmless _ _ _ fun ev hm => (h1 ev hm).harmless]
      simp only [contentAfter, if_true]
      rw [contentAfter_stored, List.nil_append]

/-- **C65.** If the status is 0 and the operating system has accepted the whole text, then property_table_raw.go declares two tables
with which `LookupFirstChar` finds for every character the properties that the data files list for it. (U+FFFD as in
`C44_tables`.) -/
theorem C65_success (h1 : Holds os fuel gbpPath E1 es1 fe1) (h2 : Holds os fuel emojiPath E2 es2 fe2)
    (h3 : Holds os fuel dcpPath E3 es3 fe3) (hf : KeepsTokens formatSource) (hw : ∀ src, src.length ≤ os.write src)
    (h : (main os formatSource fuel).2 = .status 0) (old : Option (List UInt8)) :
    ∃ src, contentAfter tablePath old (main os formatSource fuel).1 = some src ∧
      ∃ indices props : List UInt8, goTokens src = some (tableFile (indices.map UInt8.toNat) (props.map UInt8.toNat)) ∧
        ∀ c : Char, (c ≠ '\uFFFD' ∨ ∀ x ∈ es1 ++ es2 ++ es3, ∀ n, x.1 ≤ n → n ≤ x.2.1 → n.isValidChar) → ∀ rest,
          LookupFirstCharIn (goIndex indices) (goIndex props) (String.utf8EncodeChar c ++ rest) =
            .ok (listedProps LookupGCBProperty LookupInCBProperty es1 es2 es3 c.val.toNat, (String.utf8EncodeChar c).length) := by
  obtain ⟨src, ⟨rd1, rd2, rd3, buf, o1, o2, o3, hg, hfs⟩, hc⟩ := (C65_write_ignored (os := os) (formatSource := formatSource)
    (fuel := fuel) os.write old).2 h
  obtain ⟨r1, p1, d1⟩ := h1
  obtain ⟨r2, p2, d2⟩ := h2
  obtain ⟨r3, p3, d3⟩ := h3
  rw [o1, Except.ok.injEq] at p1
  rw [o2, Except.ok.injEq] at p2
  rw [o3, Except.ok.injEq] at p3
  subst p1 p2 p3
  obtain ⟨⟨rfl, rfl⟩, ⟨rfl, rfl⟩, ⟨rfl, rfl⟩⟩ := C53_no_source_from_bad_file d1 d2 d3 buf hg
  refine ⟨src, ?_, ?_⟩
  · rw [List.take_of_length_le (hw src)] at hc
    exact hc
  · rw [hf buf src hfs]
    exact C53_main d1 d2 d3 buf hg

/-- **C65.** With the data files that are in the repository, a working `format.Source` and a working disk, the command ends with
the status 0 and property_table_raw.go has the tokens of the committed one. -/
theorem C65_regenerate {rd1 rd2 rd3 : σ} (o1 : os.openFile gbpPath = .ok rd1) (o2 : os.openFile emojiPath = .ok rd2)
    (o3 : os.openFile dcpPath = .ok rd3) (h1 : Delivers os.read .eof rd1 (textFile Text.breakProperty.flatten) 0)
    (h2 : Delivers os.read .eof rd2 (textFile Text.emojiData.flatten) 0)
    (h3 : Delivers os.read .eof rd3 (textFile Text.derivedCore.flatten) 0)
    (hfuel : (textFile Text.breakProperty.flatten).length + (textFile Text.emojiData.flatten).length +
      (textFile Text.derivedCore.flatten).length < fuel)
    (hf : KeepsTokens formatSource) (hok : ∀ buf, (goTokens buf).isSome → ∃ src, formatSource buf = .ok src)
    (hcr : os.create tablePath = .ok ()) (hw : ∀ src, src.length ≤ os.write src) (old : Option (List UInt8)) :
    (main os formatSource fuel).2 = .status 0 ∧ ∃ src, contentAfter tablePath old (main os formatSource fuel).1 = some src ∧
      (goTokens src).isSome ∧ goTokens src = goTokens (textFile Text.tableText.flatten) := by
  obtain ⟨buf, hg, hs, ht⟩ := C33_committed_files h1 h2 h3 fuel hfuel
  obtain ⟨src, hsrc⟩ := hok buf hs
  obtain ⟨raw, hb, hp⟩ := main_ok hg
  have h0 : (main os formatSource fuel).2 = .status 0 := by
    unfold main buildTree
    simp only [o1, o2, o3, readTree_ok.mpr hb, hp, writeTable, hsrc, hcr]
  refine ⟨h0, ?_⟩
  obtain ⟨src', ⟨q1, q2, q3, buf', p1, p2, p3, hg', hfs⟩, hc⟩ := (C65_write_ignored (os := os) (formatSource := formatSource)
    (fuel := fuel) os.write old).2 h0
  rw [o1, Except.ok.injEq] at p1
  rw [o2, Except.ok.injEq] at p2
  rw [o3, Except.ok.injEq] at p3
  subst p1 p2 p3
  rw [hg] at hg'
  simp only [Except.ok.injEq] at hg'
  subst hg'
  refine ⟨src', ?_, ?_, ?_⟩
  · rw [List.take_of_length_le (hw src')] at hc
    exact hc
  · rw [hf buf src' hfs]; exact hs
  · rw [hf buf src' hfs]; exact ht

/-! ## Cases that meet the hypotheses -/

/-- The disk has the three files with the Unicode 17 entries, and accepts `n` bytes. -/
def exampleOS (n : Nat) : OS (List UInt8) where
  openFile p := if p = gbpPath then .ok (renderFile shipped1) else if p = emojiPath then .ok (renderFile shipped2)
    else if p = dcpPath then .ok (renderFile shipped3) else .error "no such file"
  read := bytesReader
  create _ := .ok ()
  write _ := n

/-- `C65_write_ignored` is not vacuous: with a full disk the status is 0 and the table is gone (here it is an empty file). -/
theorem C65_full_disk : ∃ fuel, (main (exampleOS 0) .ok fuel).2 = .status 0 ∧
    ∀ old, contentAfter tablePath (some old) (main (exampleOS 0) .ok fuel).1 = some [] := by
  obtain ⟨fuel, h1, h2, h3⟩ := shipped_files
  obtain ⟨src, h, _⟩ := C53_committed_source h1 h2 h3 shipped_entries
  obtain ⟨raw, hb, hp⟩ := main_ok h
  have h0 : (main (exampleOS 0) .ok fuel).2 = .status 0 := by
    have e1 : (exampleOS 0).openFile gbpPath = .ok (renderFile shipped1) := by simp [exampleOS]
    have e2 : (exampleOS 0).openFile emojiPath = .ok (renderFile shipped2) := by simp [exampleOS, gbpPath, emojiPath]
    have e3 : (exampleOS 0).openFile dcpPath = .ok (renderFile shipped3) := by simp [exampleOS, gbpPath, emojiPath, dcpPath]
    have e4 : (exampleOS 0).read = bytesReader := rfl
    have e5 : (exampleOS 0).create tablePath = .ok () := rfl
    unfold main buildTree
    simp only [e1, e2, e3, e4, readTree_ok.mpr hb, hp, writeTable, e5]
  refine ⟨fuel, h0, fun old => ?_⟩
  obtain ⟨src', _, hc⟩ := (C65_write_ignored (os := exampleOS 0) (formatSource := .ok) (fuel := fuel) (fun _ => 0) (some old)).2 h0
  rw [List.take_zero] at hc
  exact hc

/-- A formatter that keeps the tokens. -/
example : KeepsTokens .ok := fun buf src h => by cases h; rfl

/-- Files with given contents, and a working disk. -/
def filesOS (openFile : String → Except String (List UInt8)) : OS (List UInt8) where
  openFile := openFile
  read := bytesReader
  create _ := .ok ()
  write s := s.length

/-- A missing file. -/
example : main (filesOS fun _ => .error "no such file") .ok 5 = ([.message (.os gbpPath "no such file")], .status 1) := by decide +kernel

/-- A malformed line in the first file: the error names it. -/
example : main (filesOS fun p => .ok (if p = gbpPath then str "zz ; x" else [])) .ok 9 =
    ([.opened gbpPath, .opened emojiPath, .opened dcpPath, .message (.reading "GraphemeBreakProperty.txt" (.invalidStart (str "zz")))],
      .status 1) := by decide +kernel

end Textseg.Gen
