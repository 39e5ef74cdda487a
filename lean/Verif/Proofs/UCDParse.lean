import Verif.Spec.GenFiles
import Verif.Model.UCDParse
import Verif.Proofs.GoBytes
import Verif.Proofs.Streaming
/-!
# The data file parsers
-/

namespace Textseg
open Spec Scanner

/-! ## One line -/

theorem bytesCut_body {line body : List UInt8} (h : Body line body) : ∃ c b, bytesCut line commentMarker = (body, c, b) := by
  obtain ⟨h1, rfl | ⟨c, rfl⟩⟩ := h
  · exact ⟨_, _, bytesCut_notMem h1⟩
  · refine ⟨c, true, ?_⟩
    have := bytesCut_append (sep := []) (b := c) h1
    rwa [List.append_assoc] at this

theorem body_exists (line : List UInt8) : ∃ body, Body line body := by
  by_cases h : hash ∈ line
  · obtain ⟨x, y, h1, h2⟩ := List.eq_append_cons_of_mem h
    exact ⟨x, h2, Or.inr ⟨y, h1⟩⟩
  · exact ⟨line, h, Or.inl rfl⟩

theorem bytesCut_semicolon {r ft : List UInt8} (h : semicolon ∉ r) :
    bytesCut (r ++ semicolon :: ft) fieldSeparator = (r, ft, true) := by
  have := bytesCut_append (sep := []) (b := ft) h
  rwa [List.append_assoc] at this

theorem parseLine_ignored {line : List UInt8} (h : IsIgnoredLine line) : parseLine line = none := by
  obtain ⟨body, hb, hs⟩ := h
  obtain ⟨c, b, hc⟩ := bytesCut_body hb
  simp only [parseLine, hc]
  rw [show bytesCut body fieldSeparator = (body, [], false) from bytesCut_notMem hs]

/-- The part of `parseLine` after the semicolon has been found. -/
theorem parseLine_data {line r ft rng : List UInt8} (hb : Body line (r ++ semicolon :: ft)) (hs : semicolon ∉ r)
    (hp : Padded rng r) : parseLine line =
      match bytesCut rng rangeSeparator with
      | (startHex, endHex, isRange) =>
        match ParseUint startHex with
        | none => some (.error (.invalidStart startHex))
        | some startInt =>
          if isRange then
            match ParseUint endHex with
            | none => some (.error (.invalidEnd endHex))
            | some endInt => some (.ok { Start := toRune startInt, End := toRune endInt + 1, Fields := TrimSpace ft })
          else some (.ok { Start := toRune startInt, End := toRune startInt + 1, Fields := TrimSpace ft }) := by
  obtain ⟨c, b, hc⟩ := bytesCut_body hb
  simp only [parseLine, hc, bytesCut_semicolon hs, TrimSpace_padded hp]
  rfl

theorem rangeText_cut {rng : List UInt8} {lo hi : Nat} : RangeText rng lo hi ↔
    match bytesCut rng rangeSeparator with
    | (startHex, endHex, isRange) => ParseUint startHex = some lo ∧
        if isRange then ParseUint endHex = some hi else hi = lo := by
  cases hx : bytesCut rng rangeSeparator with
  | mk a y =>
    obtain ⟨b, f⟩ := y
    have hdot : hexDigitVal 0x2E = none := by decide
    cases f with
    | true =>
      have hr := bytesCut_found hx
      simp only [if_true, ParseUint_iff]
      constructor
      · rintro ⟨h1, h2, h3⟩
        rcases h3 with ⟨h3, _⟩ | ⟨a', b', h3, h4, h5⟩
        · exfalso
          refine isHex_notMem hdot h3 ?_
          rw [hr]; simp [rangeSeparator]
        · have hn := isHex_notMem hdot h4
          have e := bytesCut_append (sep := [0x2E]) (b := b') hn
          rw [h3, show rangeSeparator = [0x2E, 0x2E] from rfl, e] at hx
          cases hx
          exact ⟨⟨h4, h1⟩, h5, h2⟩
      · rintro ⟨⟨h1, h2⟩, h3, h4⟩
        exact ⟨h2, h4, Or.inr ⟨a, b, hr, h1, h3⟩⟩
    | false =>
      obtain ⟨rfl, rfl⟩ := bytesCut_notFound hx
      simp only [Bool.false_eq_true, if_false, ParseUint_iff]
      constructor
      · rintro ⟨h1, h2, h3⟩
        rcases h3 with ⟨h3, h4⟩ | ⟨a', b', h3, h4, h5⟩
        · exact ⟨⟨h3, h1⟩, h4⟩
        · exfalso
          have hn := isHex_notMem hdot h4
          have e := bytesCut_append (sep := [0x2E]) (b := b') hn
          rw [h3, show rangeSeparator = [0x2E, 0x2E] from rfl, e] at hx
          exact absurd (congrArg (·.2.2) hx) (by simp)
      · rintro ⟨⟨h1, h2⟩, rfl⟩
        exact ⟨h2, h2, Or.inl ⟨h1, rfl⟩⟩

/-! ## Fields -/

theorem semicolon_notMem_space : ∀ w ∈ spaceSequences, semicolon ∉ w := by decide +kernel

theorem spaces_notMem {c : UInt8} (hc : ∀ w ∈ spaceSequences, c ∉ w) {w : List UInt8} (h : Spaces w) : c ∉ w := by
  induction h with
  | nil => simp
  | cons w rest hw _ ih => rw [List.mem_append]; exact fun h => h.elim (hc w hw) ih

theorem TrimSpace_spaces_append {w s : List UInt8} (hw : Spaces w) : TrimSpace (w ++ s) = TrimSpace s := by
  refine TrimSpace_padded ?_
  obtain ⟨h1, a, b, h2, h3, h4⟩ := padded_TrimSpace s
  refine ⟨h1, w ++ a, b, spaces_iff.mp (hw.append (spaces_iff.mpr h2)), h3, ?_⟩
  conv => lhs; rw [h4]
  simp

theorem TrimSpace_append_spaces {w s : List UInt8} (hw : Spaces w) : TrimSpace (s ++ w) = TrimSpace s := by
  refine TrimSpace_padded ?_
  obtain ⟨h1, a, b, h2, h3, h4⟩ := padded_TrimSpace s
  refine ⟨h1, a, b ++ w, h2, spaces_iff.mp ((spaces_iff.mpr h3).append hw), ?_⟩
  conv => lhs; rw [h4]
  simp

/-- Cutting at a byte that occurs neither in `a` nor in `w`. -/
theorem append_eq_cons_split {c : UInt8} {w x s rest : List UInt8} (hw : c ∉ w) (h : w ++ x = s ++ c :: rest) :
    ∃ s', s = w ++ s' ∧ x = s' ++ c :: rest := by
  rcases List.append_eq_append_iff.mp h with ⟨a, h1, h2⟩ | ⟨a, h1, h2⟩
  · exact ⟨a, h1, h2⟩
  · cases a with
    | nil => exact ⟨[], by simpa using h1.symm, by simpa using h2.symm⟩
    | cons d a =>
      rw [List.cons_append] at h2
      cases h2
      exact absurd (by rw [h1]; simp) hw

theorem fieldsText_dropLeft {w x : List UInt8} {fs : List (List UInt8)} (hw : Spaces w) (h : FieldsText (w ++ x) fs) :
    FieldsText x fs := by
  have hn := spaces_notMem semicolon_notMem_space hw
  generalize hy : w ++ x = y at h
  cases h with
  | last s t hs hp =>
    subst hy
    refine .last _ _ (fun hm => hs (List.mem_append_right _ hm)) ?_
    rw [padded_iff, TrimSpace_spaces_append hw] at hp
    rw [padded_iff]; exact hp
  | cons s t rest ts hs hp hr =>
    obtain ⟨s', rfl, rfl⟩ := append_eq_cons_split hn hy
    refine .cons _ _ _ _ (fun hm => hs (List.mem_append_right _ hm)) ?_ hr
    rw [padded_iff, TrimSpace_spaces_append hw] at hp
    rw [padded_iff]; exact hp

theorem fieldsText_dropRight {w y : List UInt8} {fs : List (List UInt8)} (hw : Spaces w) (h : FieldsText y fs) :
    ∀ x, x ++ w = y → FieldsText x fs := by
  have hn := spaces_notMem semicolon_notMem_space hw
  induction h with
  | last s t hs hp =>
    rintro x rfl
    refine .last _ _ (fun hm => hs (List.mem_append_left _ hm)) ?_
    rw [padded_iff, TrimSpace_append_spaces hw] at hp
    rw [padded_iff]; exact hp
  | cons s t rest ts hs hp _ ih =>
    intro x hx
    rcases List.append_eq_append_iff.mp hx with ⟨a, h1, h2⟩ | ⟨a, h1, h2⟩
    · exfalso
      exact hn (by rw [h2]; simp)
    · cases a with
      | nil =>
        exfalso
        rw [List.nil_append] at h2
        exact hn (by rw [← h2]; simp)
      | cons d a =>
        rw [List.cons_append] at h2
        cases h2
        subst h1
        exact .cons _ _ _ _ hs hp (ih a rfl)

theorem fieldsText_trim {ft : List UInt8} {fs : List (List UInt8)} (h : FieldsText ft fs) : FieldsText (TrimSpace ft) fs := by
  obtain ⟨_, a, b, h2, h3, h4⟩ := padded_TrimSpace ft
  rw [h4, List.append_assoc] at h
  exact fieldsText_dropRight (spaces_iff.mpr h3) (fieldsText_dropLeft (spaces_iff.mpr h2) h) _ rfl

theorem fieldsText_exists (ft : List UInt8) : ∃ fs, FieldsText ft fs := by
  have key : ∀ n (ft : List UInt8), ft.length ≤ n → ∃ fs, FieldsText ft fs := by
    intro n
    induction n with
    | zero =>
      intro ft hl
      have : ft = [] := List.eq_nil_of_length_eq_zero (by omega)
      subst this
      exact ⟨_, .last [] _ (by simp) (padded_TrimSpace _)⟩
    | succ n ih =>
      intro ft hl
      by_cases h : semicolon ∈ ft
      · obtain ⟨x, y, rfl, h2⟩ := List.eq_append_cons_of_mem h
        rw [List.length_append, List.length_cons] at hl
        obtain ⟨fs, hf⟩ := ih y (by omega)
        exact ⟨_, .cons x _ y fs h2 (padded_TrimSpace _) hf⟩
      · exact ⟨_, .last ft _ h (padded_TrimSpace _)⟩
  exact key _ ft (Nat.le_refl _)

/-- Feeding a consumer with fields until it says stop. The Boolean tells whether all fields were accepted. -/
def feed {τ α : Type} (yield : τ → α → Bool × τ) : τ → List α → τ
  | t, [] => t
  | t, x :: xs =>
    match yield t x with
    | (false, t) => t
    | (true, t) => feed yield t xs

theorem fieldsIter_spec {τ : Type} (yield : τ → GoString → Bool × τ) {f : List UInt8} {fs : List (List UInt8)}
    (h : FieldsText f fs) : ∀ fuel, f.length < fuel → ∀ t, ∃ remain ts, fieldsIter yield fuel f t = .ok (remain, feed yield t fs) ∧
      FieldsText remain ts ∧ ts.length ≤ fs.length ∧ remain.length ≤ f.length := by
  induction h with
  | last s t hs hp =>
    intro fuel hf tt
    match fuel, hf with
    | fuel + 1, _ =>
      unfold fieldsIter
      rw [show bytesCut s fieldSeparator = (s, [], false) from bytesCut_notMem hs]
      simp only [TrimSpace_padded hp, feed]
      rcases hy : yield tt t with ⟨b, t'⟩
      cases b
      · exact ⟨s, [t], rfl, .last _ _ hs hp, Nat.le_refl _, Nat.le_refl _⟩
      · exact ⟨s, [t], rfl, .last _ _ hs hp, Nat.le_refl _, Nat.le_refl _⟩
  | cons s t rest ts hs hp hr ih =>
    intro fuel hf tt
    rw [List.length_append, List.length_cons] at hf
    match fuel, hf with
    | fuel + 1, hf =>
      unfold fieldsIter
      rw [bytesCut_semicolon hs]
      simp only [TrimSpace_padded hp, feed]
      rcases hy : yield tt t with ⟨b, t'⟩
      cases b
      · exact ⟨_, _, rfl, .cons s t rest ts hs hp hr, Nat.le_refl _, Nat.le_refl _⟩
      · obtain ⟨remain, us, h1, h2, h3, h4⟩ := ih fuel (by omega) t'
        refine ⟨remain, us, h1, h2, ?_, ?_⟩
        · rw [List.length_cons]; omega
        · rw [List.length_append, List.length_cons]; omega

theorem feed_collect (acc fs : List GoString) : feed (fun acc v => (true, acc ++ [v])) acc fs = acc ++ fs := by
  induction fs generalizing acc with
  | nil => simp [feed]
  | cons x xs ih => simp [feed, ih]

theorem allFields_eq {f : List UInt8} {fs : List (List UInt8)} (h : FieldsText f fs) : allFields f = .ok fs := by
  obtain ⟨r, ts, h1, _⟩ := fieldsIter_spec (fun acc v => (true, acc ++ [v])) h (f.length + 1) (by omega) []
  rw [allFields, h1, feed_collect]
  rfl

theorem firstString_eq {f : List UInt8} {fs : List (List UInt8)} (h : FieldsText f fs) : some (firstString f) = fs.head? := by
  cases h with
  | last s t hs hp =>
    simp only [firstString]
    rw [show bytesCut f fieldSeparator = (f, [], false) from bytesCut_notMem hs]
    simp [TrimSpace_padded hp]
  | cons s t rest ts hs hp hr =>
    simp only [firstString, bytesCut_semicolon hs]
    simp [TrimSpace_padded hp]

/-- What an entry has to be. -/
structure EntryIs (e : Entry) (x : Nat × Nat × List (List UInt8)) : Prop where
  start : e.Start = toRune x.1
  stop : e.End = toRune x.2.1 + 1
  all : allFields e.Fields = .ok x.2.2
  first : some (firstString e.Fields) = x.2.2.head?

theorem parseLine_entry {line : List UInt8} {lo hi : Nat} {fs : List (List UInt8)} (h : IsEntryLine line lo hi fs) :
    ∃ e, parseLine line = some (.ok e) ∧ EntryIs e (lo, hi, fs) := by
  obtain ⟨r, rng, ft, hb, hs, hp, hr, hf⟩ := h
  rw [parseLine_data hb hs hp]
  rw [rangeText_cut] at hr
  have hf' := fieldsText_trim hf
  rcases hx : bytesCut rng rangeSeparator with ⟨a, b, f⟩
  rw [hx] at hr
  simp only at hr ⊢
  rw [hr.1]
  cases f with
  | true =>
    have h2 := hr.2
    simp only [if_true] at h2 ⊢
    rw [h2]
    exact ⟨_, rfl, rfl, rfl, allFields_eq hf', firstString_eq hf'⟩
  | false =>
    have h2 := hr.2
    simp only [Bool.false_eq_true, if_false] at h2 ⊢
    subst h2
    exact ⟨_, rfl, rfl, rfl, allFields_eq hf', firstString_eq hf'⟩

/-- The error of a malformed line. -/
def IsRangeErr (line : List UInt8) (e : ParseErr) : Prop := (∃ x, e = .invalidStart x ∧ BadStart line x) ∨ ∃ x, e = .invalidEnd x ∧ BadEnd line x

theorem bytesIndex_le {sep : List UInt8} : ∀ {s : List UInt8} {u v : List UInt8}, s = u ++ sep ++ v → ∃ i, bytesIndex sep s = some i ∧ i ≤ u.length
  | [], u, v, h => by
    have h1 : sep = [] := by cases sep with | nil => rfl | cons c l => cases u <;> cases h
    subst h1
    exact ⟨0, rfl, Nat.zero_le _⟩
  | c :: s, [], v, h => by
    refine ⟨0, ?_, Nat.zero_le _⟩
    rw [bytesIndex, if_pos]
    rw [h, List.nil_append, List.isPrefixOf_iff_prefix]
    exact List.prefix_append _ _
  | c :: s, d :: u, v, h => by
    simp only [List.cons_append, List.cons.injEq] at h
    obtain ⟨i, h1, h2⟩ := bytesIndex_le h.2
    rw [bytesIndex]
    split
    · exact ⟨0, rfl, Nat.zero_le _⟩
    · exact ⟨i + 1, by rw [h1]; rfl, by simpa using h2⟩

theorem startText_cut {rng a b : List UInt8} {f : Bool} (h : bytesCut rng rangeSeparator = (a, b, f)) : StartText rng a := by
  cases f with
  | false =>
    refine .inl ⟨(bytesCut_notFound h).1, ?_⟩
    rintro ⟨u, v, e⟩
    obtain ⟨i, h1, -⟩ := bytesIndex_le e.symm
    rw [bytesCut, show rangeSeparator = [0x2E, 0x2E] from rfl, h1] at h
    cases h
  | true =>
    have hr := bytesCut_found h
    refine .inr ⟨b, hr, ?_⟩
    rintro ⟨u, v, e⟩
    have e2 : rng = u ++ [0x2E, 0x2E] ++ (v ++ [0x2E] ++ b) := by
      rw [hr, show rangeSeparator = [0x2E] ++ [0x2E] from rfl, ← List.append_assoc, ← e]
      simp
    obtain ⟨i, h1, h2⟩ := bytesIndex_le e2
    have hl := congrArg List.length e
    simp only [List.length_append, List.length_cons, List.length_nil] at hl
    rw [bytesCut, show rangeSeparator = [0x2E, 0x2E] from rfl, h1] at h
    simp only [Prod.mk.injEq] at h
    have h3 := congrArg List.length h.1
    rw [List.length_take] at h3
    have : i ≤ rng.length := by rw [e2]; simp; omega
    omega

theorem ParseUint_none {x : List UInt8} (h : ParseUint x = none) : ∀ n, n < 2 ^ 32 → ¬ IsHex x n := by
  intro n hn hx
  rw [ParseUint_iff.mpr ⟨hx, hn⟩] at h
  cases h

theorem parseLine_malformed {line : List UInt8} (h : IsMalformedLine line) :
    ∃ e, parseLine line = some (.error e) ∧ IsRangeErr line e := by
  obtain ⟨r, rng, ft, hbd, hs, hp, hr⟩ := h
  rw [parseLine_data hbd hs hp]
  simp only [rangeText_cut] at hr
  rcases hx : bytesCut rng rangeSeparator with ⟨a, b, f⟩
  rw [hx] at hr
  simp only at hr ⊢
  cases ha : ParseUint a with
  | none => exact ⟨_, rfl, Or.inl ⟨_, rfl, r, rng, ft, hbd, hs, hp, startText_cut hx, ParseUint_none ha⟩⟩
  | some lo =>
    cases f with
    | true =>
      cases hb : ParseUint b with
      | none =>
        have ha' := ParseUint_iff.mp ha
        exact ⟨_, rfl, Or.inr ⟨_, rfl, r, rng, ft, hbd, hs, hp, ⟨a, lo, bytesCut_found hx, ha'.1, ha'.2⟩, ParseUint_none hb⟩⟩
      | some hi => exact absurd ⟨ha, by rw [if_pos rfl]; exact hb⟩ (hr lo hi)
    | false => exact absurd ⟨ha, by rw [if_neg (by decide)]⟩ (hr lo lo)

/-- Every line is of one of the three kinds. -/
theorem line_kinds (line : List UInt8) : IsIgnoredLine line ∨ (∃ lo hi fs, IsEntryLine line lo hi fs) ∨ IsMalformedLine line := by
  obtain ⟨body, hb⟩ := body_exists line
  by_cases hs : semicolon ∈ body
  · obtain ⟨r, ft, rfl, h2⟩ := List.eq_append_cons_of_mem hs
    by_cases hr : ∃ lo hi, RangeText (TrimSpace r) lo hi
    · obtain ⟨lo, hi, hr⟩ := hr
      obtain ⟨fs, hf⟩ := fieldsText_exists ft
      exact Or.inr (Or.inl ⟨lo, hi, fs, r, _, ft, hb, h2, padded_TrimSpace r, hr, hf⟩)
    · exact Or.inr (Or.inr ⟨r, _, ft, hb, h2, padded_TrimSpace r, fun lo hi h => hr ⟨lo, hi, h⟩⟩)
  · exact Or.inl ⟨body, hb, hs⟩

/-- Every list of lines has a meaning. -/
theorem linesMean_exists (ls : List (List UInt8)) : ∃ es e, LinesMean ls es e := by
  induction ls with
  | nil => exact ⟨_, _, .done⟩
  | cons l ls ih =>
    obtain ⟨es, e, ih⟩ := ih
    rcases line_kinds l with h | ⟨lo, hi, fs, h⟩ | h
    · exact ⟨_, _, .skip _ _ _ _ h ih⟩
    · exact ⟨_, _, .entry _ _ _ _ _ _ _ h ih⟩
    · exact ⟨_, _, .malformed _ _ h⟩

/-! ## The lines of a file -/

theorem indexByte_append_self {c : UInt8} {l D : List UInt8} (h : c ∉ l) : indexByte c (l ++ c :: D) = some l.length := by
  induction l with
  | nil => simp [indexByte]
  | cons x l ih =>
    have hx : x ≠ c := by intro e; subst e; exact h (List.mem_cons_self ..)
    rw [List.cons_append, indexByte, if_neg hx, ih (fun hm => h (List.mem_cons_of_mem _ hm))]
    rfl

theorem indexByte_none {c : UInt8} {l : List UInt8} (h : c ∉ l) : indexByte c l = none := by
  induction l with
  | nil => rfl
  | cons x l ih =>
    have hx : x ≠ c := by intro e; subst e; exact h (List.mem_cons_self ..)
    rw [indexByte, if_neg hx, ih (fun hm => h (List.mem_cons_of_mem _ hm))]
    rfl

theorem dropCR_of_ne {l : List UInt8} (h : l.getLast? ≠ some carriageReturn) : dropCR l = l := if_neg h

theorem dropCR_append (l : List UInt8) : dropCR (l ++ [carriageReturn]) = l := by
  rw [dropCR, if_pos (by simp), List.dropLast_concat]

theorem scanLines_line {l D : List UInt8} (h : newline ∉ l) (b : Bool) :
    ScanLines (l ++ newline :: D) b = .ok { advance := l.length + 1, token := some (dropCR l), err := none } := by
  unfold ScanLines
  rw [if_neg (by simp), indexByte_append_self h]
  simp

theorem scanLines_last {l : List UInt8} (h : newline ∉ l) (h0 : l ≠ []) :
    ScanLines l true = .ok { advance := l.length, token := some (dropCR l), err := none } := by
  unfold ScanLines
  rw [if_neg (by simp [h0]), indexByte_none h]
  simp

theorem scanLines_undecided {D : List UInt8} {r : SplitResult} (h : ScanLines D false = .ok r) (hr : r.token = none) :
    newline ∉ D := by
  intro hm
  obtain ⟨x, y, rfl, h2⟩ := List.eq_append_cons_of_mem hm
  rw [scanLines_line h2] at h
  cases h
  cases hr

theorem scanLines_more {D : List UInt8} (h : newline ∉ D) : ScanLines D false = .ok needMore := by
  unfold ScanLines
  rw [if_neg (by simp), indexByte_none h]
  rfl

theorem shortLines_take {D : List UInt8} (h : ShortLines D) (hl : 65536 ≤ D.length) : newline ∈ D.take 65536 :=
  h [] (D.take 65536) (D.drop 65536) (by simp) (by rw [List.length_take]; omega)

theorem shortLines_suffix {D1 D2 : List UInt8} (h : ShortLines (D1 ++ D2)) : ShortLines D2 := by
  intro a b c e hb
  exact h (D1 ++ a) b c (by rw [e]; simp) hb

theorem shortLines_line {l D : List UInt8} (h : ShortLines (l ++ newline :: D)) (hn : newline ∉ l) : l.length < 65536 := by
  apply Classical.byContradiction
  intro hl
  have := shortLines_take h (by rw [List.length_append]; omega)
  rw [List.take_append_of_le_length (by omega)] at this
  exact hn (List.mem_of_mem_take this)

theorem shortLines_of_length {D : List UInt8} (h : D.length < 65536) : ShortLines D := by
  intro a b c e hb
  have := congrArg List.length e
  simp only [List.length_append] at this
  omega

/-- A file of lines of at most 65534 bytes. -/
theorem shortLines_of_lines {lines : List (List UInt8)} {D : List UInt8} (h : FileOf lines D)
    (hs : ∀ l ∈ lines, l.length ≤ 65534) : ShortLines D := by
  have key : ∀ l D : List UInt8, l.length ≤ 65535 → ShortLines D → ShortLines (l ++ newline :: D) := by
    intro l D hl hD a b c e hb
    rcases Nat.lt_or_ge l.length a.length with hla | hla
    · -- the window lies in `D`
      have e1 : (l ++ newline :: D).drop (l.length + 1) = D := by
        rw [List.drop_append, List.drop_of_length_le (by omega), Nat.add_sub_cancel_left]; rfl
      rw [e, List.append_assoc, List.drop_append_of_le_length (by omega)] at e1
      exact hD (a.drop (l.length + 1)) b c (by rw [List.append_assoc]; exact e1.symm) hb
    · have hg : (a ++ b ++ c)[l.length]? = some newline := by
        rw [← e, List.getElem?_append_right (by omega), Nat.sub_self]; rfl
      rw [List.getElem?_append_left (by rw [List.length_append]; omega), List.getElem?_append_right hla] at hg
      exact List.mem_of_getElem? hg
  induction h with
  | nil => exact shortLines_of_length (by decide)
  | last l h1 h2 h3 => have := hs l (by simp); exact shortLines_of_length (by omega)
  | lastCR l h1 => have := hs l (by simp); exact shortLines_of_length (by simp; omega)
  | lf l ls D h1 h2 _ ih => have := hs l (by simp); exact key l D (by omega) (ih fun l hl => hs l (by simp [hl]))
  | crlf l ls D h1 _ ih =>
    have := hs l (by simp)
    have h := key (l ++ [carriageReturn]) D (by simp; omega) (ih fun l hl => hs l (by simp [hl]))
    simpa using h

theorem streams_nil {L S : Prop} {E F : IOErr} {toks : List (List UInt8)} (h : Streams ScanLines 65536 L S E [] toks F) :
    toks = [] ∧ F = E := by
  generalize hx : ([] : List UInt8) = x at h
  cases h with
  | done => exact ⟨rfl, rfl⟩
  | tooLong _ h1 h2 => subst hx; have := h1.1; simp at this
  | token _ r tok toks F h1 => exact absurd hx.symm h1

theorem streams_line {L S : Prop} {E F : IOErr} {toks : List (List UInt8)} {l D : List UInt8} (hn : newline ∉ l)
    (hl : l.length < 65536) (h : Streams ScanLines 65536 L S E (l ++ newline :: D) toks F) :
    ∃ toks', toks = dropCR l :: toks' ∧ Streams ScanLines 65536 L S E D toks' F := by
  generalize hx : l ++ newline :: D = x at h
  cases h with
  | done => exact absurd hx (by simp)
  | tooLong _ g1 g2 =>
    subst hx
    obtain ⟨_, r, g3, g4⟩ := g1
    refine absurd ?_ (scanLines_undecided g3 g4)
    rw [List.mem_take_iff_getElem]
    exact ⟨l.length, by rw [List.length_append, List.length_cons]; omega, by rw [List.getElem_append_right (by omega)]; simp⟩
  | token _ r tok toks F g1 g2 g3 g4 g5 g6 =>
    subst hx
    rw [scanLines_line hn] at g3
    cases g3
    cases g4
    have e : (l ++ newline :: D).drop (l.length + 1) = D := by
      rw [List.drop_append, List.drop_of_length_le (by omega), Nat.add_sub_cancel_left]; rfl
    simp only [e] at g6
    exact ⟨toks, rfl, g6⟩

/-- The last bytes of a file, without a newline. -/
theorem streams_rest {L S : Prop} {E F : IOErr} {toks : List (List UInt8)} {l : List UInt8} (hn : newline ∉ l.take 65536)
    (h0 : l ≠ []) (h : Streams ScanLines 65536 L S E l toks F) :
    (l.length ≤ 65536 ∧ toks = [dropCR l] ∧ F = E) ∨ (65536 ≤ l.length ∧ toks = [] ∧ F = .tooLong) := by
  cases h with
  | done => exact absurd rfl h0
  | tooLong _ g1 g2 => exact .inr ⟨g1.1, rfl, rfl⟩
  | token _ r tok toks F g1 g2 g3 g4 g5 g6 =>
    have hl : l.length ≤ 65536 := by
      apply Classical.byContradiction
      intro hl
      have := (g2 ⟨by omega, needMore, scanLines_more hn, rfl⟩).2
      omega
    rw [List.take_of_length_le hl] at hn
    rw [scanLines_last hn h0] at g3
    cases g3
    cases g4
    simp only [List.drop_length] at g6
    obtain ⟨rfl, rfl⟩ := streams_nil g6
    exact .inl ⟨hl, rfl, rfl⟩

theorem notMem_cr {l : List UInt8} (h : newline ∉ l) : newline ∉ l ++ [carriageReturn] := by
  rw [List.mem_append]; rintro (h' | h')
  · exact h h'
  · exact absurd (List.mem_singleton.mp h') (by decide)

theorem getLast?_append_cons' (l : List UInt8) (x : UInt8) (D : List UInt8) : (l ++ x :: D).getLast? = (x :: D).getLast? := by
  rw [List.getLast?_append, List.getLast?_cons]; rfl

theorem streams_lines {lines : List (List UInt8)} {D : List UInt8} (h : FileOf lines D) {L S : Prop} {E : IOErr} :
    ShortLines D → ∀ {toks : List (List UInt8)} {F : IOErr},
    Streams ScanLines 65536 L S E D toks F → toks = lines ∧ F = E := by
  have last : ∀ {l : List UInt8}, newline ∉ l → l ≠ [] → ShortLines l → ∀ {toks : List (List UInt8)} {F : IOErr},
      Streams ScanLines 65536 L S E l toks F → toks = [dropCR l] ∧ F = E := by
    intro l h1 h2 hs toks F h
    rcases streams_rest (fun hm => h1 (List.mem_of_mem_take hm)) h2 h with ⟨_, h⟩ | ⟨hl, _⟩
    · exact h
    · exact absurd (List.mem_of_mem_take (shortLines_take hs hl)) h1
  induction h with
  | nil => intro _ toks F hs; exact streams_nil hs
  | last l h1 h2 h3 =>
    intro hsh toks F hs
    have := last h1 h2 hsh hs
    rwa [dropCR_of_ne h3] at this
  | lastCR l h1 =>
    intro hsh toks F hs
    have := last (notMem_cr h1) (by simp) hsh hs
    rwa [dropCR_append] at this
  | lf l ls D h1 h2 _ ih =>
    intro hsh toks F hs
    obtain ⟨toks', rfl, hs'⟩ := streams_line h1 (shortLines_line hsh h1) hs
    obtain ⟨rfl, rfl⟩ := ih (shortLines_suffix (D1 := l ++ [newline]) (by simpa using hsh)) hs'
    rw [dropCR_of_ne h2]
    exact ⟨rfl, rfl⟩
  | crlf l ls D h1 _ ih =>
    intro hsh toks F hs
    have e : l ++ carriageReturn :: newline :: D = (l ++ [carriageReturn]) ++ newline :: D := by simp
    rw [e] at hs hsh
    obtain ⟨toks', rfl, hs'⟩ := streams_line (notMem_cr h1) (shortLines_line hsh (notMem_cr h1)) hs
    obtain ⟨rfl, rfl⟩ := ih (shortLines_suffix (D1 := l ++ [carriageReturn] ++ [newline]) (by simpa using hsh)) hs'
    rw [dropCR_append]
    exact ⟨rfl, rfl⟩

/-- Complete lines, and more bytes after them. -/
theorem streams_head {lines : List (List UInt8)} {D : List UInt8} (h : FileOf lines D) {L S : Prop} {E : IOErr} (X : List UInt8) :
    (D = [] ∨ D.getLast? = some newline) → ShortLines D → ∀ {toks : List (List UInt8)} {F : IOErr},
    Streams ScanLines 65536 L S E (D ++ X) toks F → ∃ toks', toks = lines ++ toks' ∧ Streams ScanLines 65536 L S E X toks' F := by
  have tail : ∀ {l D : List UInt8}, (l ++ newline :: D = [] ∨ (l ++ newline :: D).getLast? = some newline) →
      D = [] ∨ D.getLast? = some newline := by
    intro l D h
    rcases D with _ | ⟨x, D⟩
    · exact .inl rfl
    · rcases h with h | h
      · simp at h
      · right
        rw [getLast?_append_cons', List.getLast?_cons_cons] at h
        exact h
  induction h with
  | nil => intro _ _ toks F hs; exact ⟨toks, rfl, hs⟩
  | last l h1 h2 h3 =>
    intro ht
    rcases ht with ht | ht
    · exact absurd ht h2
    · exact absurd (List.mem_of_getLast? ht) h1
  | lastCR l h1 =>
    intro ht
    rcases ht with ht | ht
    · simp at ht
    · simp at ht; exact absurd ht (by decide)
  | lf l ls D h1 h2 _ ih =>
    intro ht hsh toks F hs
    rw [List.append_assoc, List.cons_append] at hs
    obtain ⟨toks', rfl, hs'⟩ := streams_line h1 (shortLines_line hsh h1) hs
    obtain ⟨toks'', rfl, hs''⟩ := ih (tail ht) (shortLines_suffix (D1 := l ++ [newline]) (by simpa using hsh)) hs'
    rw [dropCR_of_ne h2]
    exact ⟨toks'', rfl, hs''⟩
  | crlf l ls D h1 _ ih =>
    intro ht hsh toks F hs
    have e : l ++ carriageReturn :: newline :: D = (l ++ [carriageReturn]) ++ newline :: D := by simp
    rw [e] at hs hsh ht
    rw [List.append_assoc, List.cons_append] at hs
    obtain ⟨toks', rfl, hs'⟩ := streams_line (notMem_cr h1) (shortLines_line hsh (notMem_cr h1)) hs
    obtain ⟨toks'', rfl, hs''⟩ := ih (tail ht) (shortLines_suffix (D1 := l ++ [carriageReturn] ++ [newline]) (by simpa using hsh)) hs'
    rw [dropCR_append]
    exact ⟨toks'', rfl, hs''⟩

/-- A file with an overlong line. -/
theorem streams_long {lines : List (List UInt8)} {D : List UInt8} (h : LongLineAfter 65537 lines D) {L S : Prop} {E : IOErr}
    {toks : List (List UInt8)} {F : IOErr} (hs : Streams ScanLines 65536 L S E D toks F) : toks = lines ∧ F = .tooLong := by
  obtain ⟨head, long, rfl, h1, h2, h3, h4, h5⟩ := h
  obtain ⟨toks', rfl, hs'⟩ := streams_head h1 long h2 h3 hs
  have h0 : long ≠ [] := by intro e; rw [e] at h5; simp at h5
  rcases streams_rest h4 h0 hs' with ⟨hl, _⟩ | ⟨_, rfl, rfl⟩
  · omega
  · exact ⟨List.append_nil _, rfl⟩

/-- A file whose last line has exactly 65536 bytes and no newline. -/
theorem streams_edge {lines : List (List UInt8)} {D head long : List UInt8} (h1 : FileOf lines head)
    (h2 : head = [] ∨ head.getLast? = some newline) (h3 : ShortLines head) (h4 : newline ∉ long) (h5 : long.length = 65536)
    (hD : D = head ++ long) {L S : Prop} {E : IOErr}
    {toks : List (List UInt8)} {F : IOErr} (hs : Streams ScanLines 65536 L S E D toks F) :
    (toks = lines ∧ F = .tooLong) ∨ (toks = lines ++ [dropCR long] ∧ F = E) := by
  subst hD
  obtain ⟨toks', rfl, hs'⟩ := streams_head h1 long h2 h3 hs
  have h0 : long ≠ [] := by intro e; rw [e] at h5; simp at h5
  rcases streams_rest (fun hm => h4 (List.mem_of_mem_take hm)) h0 hs' with ⟨_, rfl, rfl⟩ | ⟨_, rfl, rfl⟩
  · exact .inr ⟨rfl, rfl⟩
  · exact .inl ⟨List.append_nil _, rfl⟩

/-- Every file has only short lines or an overlong one. -/
theorem shortLines_or_long (D : List UInt8) : ShortLines D ∨ ∃ lines, LongLineAfter 65536 lines D := by
  have key : ∀ n (D : List UInt8), D.length ≤ n → ShortLines D ∨ ∃ lines, LongLineAfter 65536 lines D := by
    intro n
    induction n with
    | zero => intro D hl; exact .inl (shortLines_of_length (by omega))
    | succ n ih =>
      intro D hl
      by_cases hs : D.length < 65536
      · exact .inl (shortLines_of_length hs)
      · by_cases h : newline ∈ D.take 65536
        · obtain ⟨x, y, e, h2⟩ := List.eq_append_cons_of_mem h
          have hD : D = x ++ newline :: (y ++ D.drop 65536) := by
            have := List.take_append_drop 65536 D
            rw [e] at this
            rw [List.append_assoc, List.cons_append] at this
            exact this.symm
          have hx : x.length < 65536 := by
            have := congrArg List.length e
            rw [List.length_take, List.length_append, List.length_cons] at this
            omega
          generalize hz : y ++ D.drop 65536 = z at hD
          subst hD
          rw [List.length_append, List.length_cons] at hl
          have short : ∀ D, ShortLines D → ShortLines (x ++ newline :: D) := by
            intro D hD a b c e hb
            rcases Nat.lt_or_ge x.length a.length with hla | hla
            · have e1 : (x ++ newline :: D).drop (x.length + 1) = D := by
                rw [List.drop_append, List.drop_of_length_le (by omega), Nat.add_sub_cancel_left]; rfl
              rw [e, List.append_assoc, List.drop_append_of_le_length (by omega)] at e1
              exact hD (a.drop (x.length + 1)) b c (by rw [List.append_assoc]; exact e1.symm) hb
            · have hg : (a ++ b ++ c)[x.length]? = some newline := by
                rw [← e, List.getElem?_append_right (by omega), Nat.sub_self]; rfl
              rw [List.getElem?_append_left (by rw [List.length_append]; omega), List.getElem?_append_right hla] at hg
              exact List.mem_of_getElem? hg
          rcases ih z (by omega) with hz | ⟨lines, head, long, rfl, g1, g2, g3, g4, g5⟩
          · exact .inl (short z hz)
          · right
            have hend : (x ++ newline :: head).getLast? = some newline := by
              rcases g2 with rfl | g2
              · simp
              · rw [getLast?_append_cons']
                rcases head with _ | ⟨u, v⟩
                · rfl
                · rw [List.getLast?_cons_cons]; exact g2
            by_cases hc : x.getLast? = some carriageReturn
            · have hne : x ≠ [] := by intro e; rw [e] at hc; cases hc
              have hm : x = x.dropLast ++ [carriageReturn] := by
                have := List.dropLast_concat_getLast hne
                rw [List.getLast?_eq_some_getLast hne] at hc
                rw [Option.some.inj hc] at this
                exact this.symm
              refine ⟨x.dropLast :: lines, x ++ newline :: head, long, by simp, ?_, .inr hend, short _ g3, g4, g5⟩
              have := FileOf.crlf x.dropLast lines head (fun hm' => h2 (by rw [hm]; exact List.mem_append_left _ hm')) g1
              rw [show x.dropLast ++ carriageReturn :: newline :: head = (x.dropLast ++ [carriageReturn]) ++ newline :: head by simp,
                ← hm] at this
              exact this
            · exact ⟨x :: lines, x ++ newline :: head, long, by simp, .lf x lines head h2 hc g1, .inr hend, short _ g3, g4, g5⟩
        · exact .inr ⟨[], [], D, rfl, .nil, .inl rfl, shortLines_of_length (by decide), h, by omega⟩
  exact key _ D (Nat.le_refl _)

/-- Every file consists of lines. -/
theorem fileOf_exists (D : List UInt8) : ∃ lines, FileOf lines D := by
  have hcr : ∀ l : List UInt8, l.getLast? = some carriageReturn → ∃ m, l = m ++ [carriageReturn] := by
    intro l h
    exact ⟨l.dropLast, by
      have hne : l ≠ [] := by intro e; rw [e] at h; cases h
      have := List.dropLast_concat_getLast hne
      rw [List.getLast?_eq_some_getLast hne] at h
      rw [← Option.some.inj h]; exact this.symm⟩
  have key : ∀ n (D : List UInt8), D.length ≤ n → ∃ lines, FileOf lines D := by
    intro n
    induction n with
    | zero =>
      intro D hl
      have : D = [] := List.eq_nil_of_length_eq_zero (by omega)
      subst this
      exact ⟨[], .nil⟩
    | succ n ih =>
      intro D hl
      by_cases h : newline ∈ D
      · obtain ⟨x, y, rfl, h2⟩ := List.eq_append_cons_of_mem h
        rw [List.length_append, List.length_cons] at hl
        obtain ⟨ls, hls⟩ := ih y (by omega)
        by_cases hc : x.getLast? = some carriageReturn
        · obtain ⟨m, rfl⟩ := hcr x hc
          refine ⟨m :: ls, ?_⟩
          have := FileOf.crlf m ls y (fun hm => h2 (List.mem_append_left _ hm)) hls
          simpa using this
        · exact ⟨x :: ls, .lf x ls y h2 hc hls⟩
      · by_cases hc : D.getLast? = some carriageReturn
        · obtain ⟨m, rfl⟩ := hcr D hc
          exact ⟨[m], .lastCR m (fun hm => h (List.mem_append_left _ hm))⟩
        · by_cases h0 : D = []
          · subst h0; exact ⟨[], .nil⟩
          · exact ⟨[D], .last D h h0 hc⟩
  exact key _ D (Nat.le_refl _)

/-- Reading a file line by line. -/
theorem collect_lines {σ : Type} {read : Reader σ} {E : IOErr} {rd : σ} {D : List UInt8} {lines : List (List UInt8)}
    (h : FileOf lines D) (hd : Delivers read E rd D 0) (hshort : ShortLines D) :
    ∀ fuel, D.length < fuel → (newScanner rd 0).collect ScanLines read maxScanTokenSize fuel = .ok (lines, errOf E) := by
  obtain ⟨toks, F, h1, h2⟩ := stream_spec goodSplit_lines read E rd D 0 maxScanTokenSize (by decide) hd
  obtain ⟨rfl, rfl⟩ := streams_lines h hshort h1
  exact h2

/-- Reading a file with an overlong line. -/
theorem collect_long {σ : Type} {read : Reader σ} {E : IOErr} {rd : σ} {D : List UInt8} {lines : List (List UInt8)}
    (h : LongLineAfter 65537 lines D) (hd : Delivers read E rd D 0) :
    ∀ fuel, D.length < fuel → (newScanner rd 0).collect ScanLines read maxScanTokenSize fuel = .ok (lines, errOf .tooLong) := by
  obtain ⟨toks, F, h1, h2⟩ := stream_spec goodSplit_lines read E rd D 0 maxScanTokenSize (by decide) hd
  obtain ⟨rfl, rfl⟩ := streams_long h h1
  exact h2

theorem collect_file {σ : Type} {read : Reader σ} {E : IOErr} {rd : σ} {D : List UInt8} {lines : List (List UInt8)}
    (h : FileLines read rd E D lines) : ∀ fuel, D.length < fuel →
    (newScanner rd 0).collect ScanLines read maxScanTokenSize fuel = .ok (lines, errOf E) := by
  rcases h with ⟨h1, h2, h3⟩ | ⟨⟨E', h1⟩, h2, rfl⟩
  · exact collect_lines h2 h1 h3
  · exact collect_long h2 h1

theorem errOf_end {σ : Type} {s : Scanner σ} {E : IOErr} (h : s.Err = errOf E) : endOfLines s = .io E := by
  unfold endOfLines
  rw [h, errOf]
  by_cases he : E = .eof
  · rw [if_pos he, he]
  · rw [if_neg he]

/-! ## Entries -/

theorem nextEntry_of_collect {σ : Type} {read : Reader σ} {E : IOErr} (fuel : Nat) : ∀ {s : Scanner σ} {lines : List (List UInt8)}
    {es : List (Nat × Nat × List (List UInt8))} {fe : FileEnd},
    s.collect ScanLines read maxScanTokenSize fuel = .ok (lines, errOf E) → LinesMean lines es fe →
    ∃ r s', NextEntry read fuel s = .ok (r, s') ∧
      match es with
      | [] => match fe with
        | .complete => r = .error (.io E)
        | .malformed l => ∃ e, r = .error e ∧ IsRangeErr l e
      | x :: es => ∃ e ls f, r = .ok e ∧ EntryIs e x ∧ LinesMean ls es fe ∧ f < fuel ∧
          s'.collect ScanLines read maxScanTokenSize f = .ok (ls, errOf E) := by
  induction fuel with
  | zero => intro s lines es fe h; cases h
  | succ fuel ih =>
    intro s lines es fe h hm
    unfold collect at h
    unfold NextEntry
    simp only [bind, Except.bind] at h ⊢
    cases hx : s.Scan ScanLines read maxScanTokenSize with
    | error e => rw [hx] at h; cases h
    | ok y =>
      obtain ⟨b, s1⟩ := y
      rw [hx] at h
      cases b with
      | false =>
        simp only [Except.ok.injEq, Prod.mk.injEq] at h
        obtain ⟨rfl, he⟩ := h
        cases hm
        exact ⟨_, _, rfl, by rw [errOf_end he]⟩
      | true =>
        simp only at h ⊢
        cases hy : s1.collect ScanLines read maxScanTokenSize fuel with
        | error e => rw [hy] at h; cases h
        | ok z =>
          obtain ⟨toks, e⟩ := z
          rw [hy] at h
          simp only [Except.ok.injEq, Prod.mk.injEq] at h
          obtain ⟨rfl, rfl⟩ := h
          cases hm with
          | skip _ _ _ _ hl hm =>
            rw [parseLine_ignored hl]
            obtain ⟨r, s', h1, h2⟩ := ih hy hm
            refine ⟨r, s', h1, ?_⟩
            cases es with
            | nil => exact h2
            | cons x es =>
              obtain ⟨e, ls, f, g1, g2, g3, g4, g5⟩ := h2
              exact ⟨e, ls, f, g1, g2, g3, by omega, g5⟩
          | entry _ _ _ _ lo hi fs hl hm =>
            obtain ⟨e, h1, h2⟩ := parseLine_entry hl
            rw [h1]
            exact ⟨_, _, rfl, e, toks, fuel, rfl, h2, hm, by omega, hy⟩
          | malformed _ _ hl =>
            obtain ⟨e, h1, h2⟩ := parseLine_malformed hl
            rw [h1]
            exact ⟨_, _, rfl, e, rfl, h2⟩

theorem collect_mono {σ : Type} {split : SplitFunc} {read : Reader σ} {M : Nat} (fuel : Nat) : ∀ {s : Scanner σ} {x},
    s.collect split read M fuel = .ok x → ∀ f, fuel ≤ f → s.collect split read M f = .ok x := by
  induction fuel with
  | zero => intro s x h; cases h
  | succ fuel ih =>
    intro s x h f hf
    match f, hf with
    | f + 1, hf =>
      unfold collect at h ⊢
      simp only [bind, Except.bind] at h ⊢
      cases hx : s.Scan split read M with
      | error e => rw [hx] at h; cases h
      | ok y =>
        obtain ⟨b, s1⟩ := y
        rw [hx] at h
        cases b with
        | false => exact h
        | true =>
          simp only at h ⊢
          cases hy : s1.collect split read M fuel with
          | error e => rw [hy] at h; cases h
          | ok z => rw [hy] at h; rw [ih hy f (by omega)]; exact h

theorem allEntries_of_collect {σ : Type} {read : Reader σ} {E : IOErr} (fuel : Nat) : ∀ {s : Scanner σ} {lines : List (List UInt8)}
    {es : List (Nat × Nat × List (List UInt8))} {fe : FileEnd},
    s.collect ScanLines read maxScanTokenSize fuel = .ok (lines, errOf E) → LinesMean lines es fe →
    ∃ ents err, allEntries read fuel s = .ok (ents, err) ∧ ForallTwo EntryIs ents es ∧
      match fe with
      | .complete => err = .io E
      | .malformed l => IsRangeErr l err := by
  induction fuel with
  | zero => intro s lines es fe h; cases h
  | succ fuel ih =>
    intro s lines es fe h hm
    obtain ⟨r, s', h1, h2⟩ := nextEntry_of_collect (fuel + 1) h hm
    unfold allEntries
    simp only [bind, Except.bind, h1]
    cases es with
    | nil =>
      cases fe with
      | complete => simp only at h2; subst h2; exact ⟨_, _, rfl, .nil, rfl⟩
      | malformed => obtain ⟨e, rfl, he⟩ := h2; exact ⟨_, _, rfl, .nil, he⟩
    | cons x es =>
      obtain ⟨e, ls, f, rfl, g2, g3, g4, g5⟩ := h2
      obtain ⟨ents, err, i1, i2, i3⟩ := ih (collect_mono f g5 fuel (by omega)) g3
      simp only [i1]
      exact ⟨_, _, rfl, .cons _ _ _ _ g2 i2, i3⟩

end Textseg
