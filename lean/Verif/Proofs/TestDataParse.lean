import Verif.Proofs.UCDParse
/-!
# The test data parser
-/

namespace Textseg
open Spec Scanner

/-! ## EncodeRune, ParseInt -/

theorem EncodeRune_char (c : Char) : EncodeRune (toRune (c.val.toNat : Int)) = String.utf8EncodeChar c := by
  have hv := c.valid
  have hlt : c.val.toNat < 0x110000 := by
    rcases hv with h | ⟨_, h⟩
    · exact Nat.lt_trans h (by decide)
    · exact h
  have hr : (toRune (c.val.toNat : Int)).toUInt32.toNat = c.val.toNat := by
    unfold toRune
    have : Int32.ofInt (c.val.toNat : Int) = c.val.toInt32 := by
      apply Int32.toInt_inj.mp
      rw [Int32.toInt_ofInt]
      show Int.bmod _ _ = c.val.toInt32.toBitVec.toInt
      rw [show c.val.toInt32.toBitVec = c.val.toBitVec from rfl, BitVec.toInt_eq_toNat_bmod]
      rfl
    rw [this]
    simp
  have hns : ¬ (0xD800 ≤ c.val.toNat ∧ c.val.toNat ≤ 0xDFFF) := by
    rcases hv with h | ⟨h, _⟩
    · intro ⟨h1, _⟩; exact absurd h (Nat.not_lt.mpr h1)
    · intro ⟨_, h1⟩; exact absurd h (Nat.not_lt.mpr h1)
  unfold EncodeRune String.utf8EncodeChar
  simp only [hr]
  generalize c.val.toNat = n at hlt hns ⊢
  have hand : ∀ m : Nat, m &&& 0x3F = m % 64 := fun m => Nat.and_two_pow_sub_one_eq_mod m 6
  have s6 : n >>> 6 = n / 64 := Nat.shiftRight_eq_div_pow n 6
  have s12 : n >>> 12 = n / 4096 := Nat.shiftRight_eq_div_pow n 12
  have s18 : n >>> 18 = n / 262144 := Nat.shiftRight_eq_div_pow n 18
  have o80 : ∀ m, m < 64 → 128 ||| m = m + 128 := by decide
  have oC0 : ∀ m, m < 32 → 192 ||| m = m + 192 := by decide
  have oE0 : ∀ m, m < 16 → 224 ||| m = m + 224 := by decide
  have oF0 : ∀ m, m < 8 → 240 ||| m = m + 240 := by decide
  simp only [hand, s6, s12, s18]
  by_cases h1 : n ≤ 0x7F
  · rw [if_pos h1, if_pos h1]
  · rw [if_neg h1, if_neg h1]
    by_cases h2 : n ≤ 0x7FF
    · rw [if_pos h2, if_pos h2, oC0 _ (by omega), o80 _ (by omega), Nat.mod_eq_of_lt (a := n / 64) (by omega)]
    · rw [if_neg h2, if_neg h2, if_neg (by omega)]
      by_cases h3 : n ≤ 0xFFFF
      · rw [if_pos h3, if_pos h3, oE0 _ (by omega), o80 _ (by omega), o80 _ (by omega),
          Nat.mod_eq_of_lt (a := n / 4096) (by omega)]
      · rw [if_neg h3, if_neg h3, oF0 _ (by omega), o80 _ (by omega), o80 _ (by omega), o80 _ (by omega),
          Nat.mod_eq_of_lt (a := n / 262144) (by omega)]

theorem hexDigitVal_sign : hexDigitVal 0x2B = none ∧ hexDigitVal 0x2D = none := by decide

theorem ParseInt_hex {t : List UInt8} {v : Nat} (h : IsHex t v) (hv : v < 2 ^ 31) : ParseInt t = some (v : Int) := by
  have h1 := isHex_notMem hexDigitVal_sign.1 h
  have h2 := isHex_notMem hexDigitVal_sign.2 h
  cases t with
  | nil => exact absurd rfl (isHex_ne_nil h)
  | cons c t =>
    have c1 : ¬ (c = 0x2B ∨ c = 0x2D) := by
      rintro (rfl | rfl)
      · exact h1 (List.mem_cons_self ..)
      · exact h2 (List.mem_cons_self ..)
    have c2 : c ≠ 0x2D := fun e => c1 (Or.inr e)
    unfold ParseInt
    simp only [if_neg c1]
    rw [ParseUint_iff.mpr ⟨h, by omega⟩]
    simp only [c2, not_false_eq_true, true_and, false_and, if_false]
    rw [if_neg (by omega)]

/-! ## Splitting -/

/-- 0xC3 occurs only as the first byte of a multiplication sign. -/
def NoDivision : List UInt8 → Prop
  | [] => True
  | x :: rest => (x = 0xC3 → ∃ r, rest = 0x97 :: r) ∧ NoDivision rest

theorem NoDivision.append {a b : List UInt8} (ha : NoDivision a) (hb : NoDivision b) : NoDivision (a ++ b) := by
  induction a with
  | nil => exact hb
  | cons x a ih =>
    refine ⟨fun hx => ?_, ih ha.2⟩
    obtain ⟨r, rfl⟩ := ha.1 hx
    exact ⟨r ++ b, rfl⟩

theorem noDivision_of_notMem {a : List UInt8} (h : (0xC3 : UInt8) ∉ a) : NoDivision a := by
  induction a with
  | nil => trivial
  | cons x a ih =>
    exact ⟨fun hx => absurd (List.mem_cons.mpr (Or.inl hx.symm)) h, ih fun hm => h (List.mem_cons_of_mem _ hm)⟩

theorem bytesIndex_noDivision {a : List UInt8} (h : NoDivision a) : bytesIndex splitMarker a = none := by
  induction a with
  | nil => decide
  | cons x a ih =>
    have : splitMarker.isPrefixOf (x :: a) = false := by
      rw [Bool.eq_false_iff]
      intro hp
      rw [List.isPrefixOf_iff_prefix] at hp
      obtain ⟨r, hr⟩ := hp
      rw [splitMarker, List.cons_append, List.cons_append, List.nil_append] at hr
      cases hr
      obtain ⟨r', hr'⟩ := h.1 rfl
      cases hr'
    simp only [bytesIndex, this, Bool.false_eq_true, if_false, ih h.2, Option.map_none]

theorem bytesIndex_division {a b : List UInt8} (h : NoDivision a) :
    bytesIndex splitMarker (a ++ splitMarker ++ b) = some a.length := by
  induction a with
  | nil =>
    have : splitMarker.isPrefixOf (splitMarker ++ b) = true := by
      rw [List.isPrefixOf_iff_prefix]; exact List.prefix_append _ _
    rw [List.nil_append]
    rw [show splitMarker ++ b = 0xC3 :: (0xB7 :: b) from rfl] at this ⊢
    simp only [bytesIndex, this, if_true, List.length_nil]
  | cons x a ih =>
    have : splitMarker.isPrefixOf (x :: (a ++ splitMarker ++ b)) = false := by
      rw [Bool.eq_false_iff]
      intro hp
      rw [List.isPrefixOf_iff_prefix] at hp
      obtain ⟨r, hr⟩ := hp
      rw [splitMarker, List.cons_append, List.cons_append, List.nil_append] at hr
      obtain ⟨hx, hr⟩ := List.cons.inj hr
      obtain ⟨r', hr'⟩ := h.1 hx.symm
      rw [hr'] at hr
      cases hr
    show bytesIndex splitMarker (x :: (a ++ splitMarker ++ b)) = _
    simp only [bytesIndex, this, Bool.false_eq_true, if_false, ih h.2, Option.map_some, List.length_cons]

theorem bytesCut_noDivision {a : List UInt8} (h : NoDivision a) : bytesCut a splitMarker = (a, [], false) := by
  rw [bytesCut, bytesIndex_noDivision h]

theorem bytesCut_division {a b : List UInt8} (h : NoDivision a) : bytesCut (a ++ splitMarker ++ b) splitMarker = (a, b, true) := by
  rw [bytesCut, bytesIndex_division h]
  simp only [List.take_append_of_le_length, List.append_assoc, Nat.le_refl, List.take_length, Prod.mk.injEq, true_and,
    and_true]
  rw [List.drop_append, List.drop_of_length_le (by omega), Nat.add_sub_cancel_left, List.drop_left]
  rfl

theorem C3_notMem_space : ∀ w ∈ spaceSequences, (0xC3 : UInt8) ∉ w := by decide +kernel

theorem C3_notMem_padded {t s : List UInt8} {v : Nat} (h : IsHex t v) (hp : Padded t s) : (0xC3 : UInt8) ∉ s := by
  obtain ⟨_, a, b, ha, hb, rfl⟩ := hp
  have h1 := spaces_notMem C3_notMem_space (spaces_iff.mpr ha)
  have h2 := spaces_notMem C3_notMem_space (spaces_iff.mpr hb)
  have h3 := isHex_notMem (c := 0xC3) (by decide) h
  simp only [List.mem_append]
  rintro ((h | h) | h)
  · exact h1 h
  · exact h3 h
  · exact h2 h

theorem parseChars_hex {t s : List UInt8} {c : Char} (h : IsHex t c.val.toNat) (hp : Padded t s) (rest : List (List UInt8))
    (input cur : List UInt8) :
    parseChars (s :: rest) input cur = parseChars rest (input ++ utf8 [c]) (cur ++ utf8 [c]) := by
  have hlt : c.val.toNat < 2 ^ 31 := by
    rcases c.valid with h | ⟨_, h⟩
    · exact Nat.lt_trans h (by decide)
    · exact Nat.lt_trans h (by decide)
  have hne : t.length ≠ 0 := fun e => isHex_ne_nil h (List.eq_nil_of_length_eq_zero e)
  conv => lhs; unfold parseChars
  simp only [TrimSpace_padded hp]
  rw [if_neg hne, ParseInt_hex h hlt]
  simp only [EncodeRune_char]
  have e : String.utf8EncodeChar c = utf8 [c] := by simp [utf8]
  rw [e]

theorem bytesSplitLoop_segment {s : List UInt8} {cs : List Char} (h : SegmentText s cs) : ∀ fuel, s.length < fuel →
    ∃ pieces, bytesSplitLoop nonsplitMarker fuel s = .ok pieces ∧
      ∀ input cur, parseChars pieces input cur = .ok (input ++ utf8 cs, cur ++ utf8 cs) := by
  induction h with
  | last s t c h hp =>
    intro fuel hf
    match fuel, hf with
    | fuel + 1, _ =>
      unfold bytesSplitLoop
      rw [show bytesCut s nonsplitMarker = (s, [], false) from bytesCut_notMem (C3_notMem_padded h hp)]
      exact ⟨[s], rfl, fun input cur => by rw [parseChars_hex h hp]; rfl⟩
  | cons s t rest c cs h hp _ ih =>
    intro fuel hf
    simp only [List.length_append, List.length_cons, List.length_nil] at hf
    match fuel, hf with
    | fuel + 1, hf =>
      obtain ⟨pieces, h1, h2⟩ := ih fuel (by omega)
      have e : bytesCut (s ++ multiplicationSign ++ rest) nonsplitMarker = (s, rest, true) :=
        bytesCut_append (sep := [0x97]) (C3_notMem_padded h hp)
      unfold bytesSplitLoop
      simp only [e, h1, bind, Except.bind]
      refine ⟨s :: pieces, rfl, fun input cur => ?_⟩
      rw [parseChars_hex h hp, h2]
      simp [utf8]

theorem segment_noDivision {s : List UInt8} {cs : List Char} (h : SegmentText s cs) : NoDivision s := by
  induction h with
  | last s t c h hp => exact noDivision_of_notMem (C3_notMem_padded h hp)
  | cons s t rest c cs h hp _ ih =>
    refine NoDivision.append (NoDivision.append (noDivision_of_notMem (C3_notMem_padded h hp)) ?_) ih
    refine ⟨fun _ => ⟨[], rfl⟩, ?_, trivial⟩
    intro h; exact absurd h (by decide)

theorem segment_ne_nil {s : List UInt8} {cs : List Char} (h : SegmentText s cs) : utf8 cs ≠ [] := by
  have : ∀ (c : Char) cs, utf8 (c :: cs) ≠ [] := by
    intro c cs h0
    have h1 : String.utf8EncodeChar c ++ utf8 cs = [] := h0
    have h2 := (List.append_eq_nil_iff.mp h1).1
    have h3 := congrArg List.length h2
    rw [String.length_utf8EncodeChar] at h3
    exact absurd h3 (Nat.ne_of_gt (Char.utf8Size_pos c))
  cases h <;> exact this _ _

/-- Spaces alone contribute nothing. -/
theorem parseSegs_spaces {w : List UInt8} (hw : IsSpaces w) (rest : List (List UInt8)) (e : TestDataEntry) :
    parseSegs (w :: rest) e = parseSegs rest e := by
  have hp : Padded [] w := by
    refine ⟨?_, w, [], hw, ⟨[], by simp, rfl⟩, by simp⟩
    rw [trimmed_iff]; decide +kernel
  have hc := spaces_notMem C3_notMem_space (spaces_iff.mpr hw)
  have hs : bytesSplit w nonsplitMarker = .ok [w] := by
    unfold bytesSplit bytesSplitLoop
    rw [show bytesCut w nonsplitMarker = (w, [], false) from bytesCut_notMem hc]
  have hpc : parseChars [w] e.Input [] = .ok (e.Input, []) := by
    unfold parseChars
    simp only [TrimSpace_padded hp, List.length_nil, if_true]
    rfl
  conv => lhs; unfold parseSegs
  simp only [hs, bind, Except.bind, hpc]
  cases e
  rfl

theorem parseSegs_segments {s : List UInt8} {segs : List (List Char)} (h : SegmentsText s segs) : ∀ fuel, s.length < fuel →
    ∃ pieces, bytesSplitLoop splitMarker fuel s = .ok pieces ∧
      ∀ e : TestDataEntry, parseSegs pieces e =
        .ok (.ok { Input := e.Input ++ utf8 segs.flatten, WantSegments := e.WantSegments ++ segs.map utf8 }) := by
  induction h with
  | nil s hw =>
    intro fuel hf
    match fuel, hf with
    | fuel + 1, _ =>
      have hc := spaces_notMem C3_notMem_space (spaces_iff.mpr hw)
      unfold bytesSplitLoop
      rw [bytesCut_noDivision (noDivision_of_notMem hc)]
      refine ⟨[s], rfl, fun e => ?_⟩
      rw [parseSegs_spaces hw]
      simp [parseSegs, utf8]
  | cons s rest seg segs hs hr ih =>
    intro fuel hf
    simp only [List.length_append, List.length_cons, List.length_nil] at hf
    match fuel, hf with
    | fuel + 1, hf =>
      obtain ⟨pieces, h1, h2⟩ := ih fuel (by omega)
      have e : bytesCut (s ++ divisionSign ++ rest) splitMarker = (s, rest, true) := bytesCut_division (segment_noDivision hs)
      unfold bytesSplitLoop
      simp only [e, h1, bind, Except.bind]
      refine ⟨s :: pieces, rfl, fun e => ?_⟩
      obtain ⟨cp, g1, g2⟩ := bytesSplitLoop_segment hs (s.length + 1) (by omega)
      have hne := segment_ne_nil hs
      unfold parseSegs
      simp only [bytesSplit, g1, bind, Except.bind, g2, List.nil_append]
      rw [h2]
      have hl : (utf8 seg).length ≠ 0 := fun h0 => hne (List.eq_nil_of_length_eq_zero h0)
      rw [if_pos hl]
      simp [utf8]

/-- The white space at the end of the line. -/
theorem segments_core {s : List UInt8} {segs : List (List Char)} (h : SegmentsText s segs) :
    ∃ core w, s = core ++ w ∧ IsSpaces w ∧ SegmentsText core segs ∧ (core = [] ∨ ∃ c, core = c ++ divisionSign) := by
  induction h with
  | nil s hs => exact ⟨[], s, rfl, hs, .nil _ ⟨[], by simp, rfl⟩, Or.inl rfl⟩
  | cons s rest seg segs hs _ ih =>
    obtain ⟨core, w, rfl, h2, h3, h4⟩ := ih
    refine ⟨s ++ divisionSign ++ core, w, by simp, h2, .cons _ _ _ _ hs h3, Or.inr ?_⟩
    rcases h4 with rfl | ⟨c, rfl⟩
    · exact ⟨s, by simp⟩
    · exact ⟨s ++ divisionSign ++ c, by simp⟩

theorem B7_notMem_space : ∀ w ∈ spaceSequences, (0xB7 : UInt8) ∉ w := by decide +kernel

theorem trimmed_division {c : List UInt8} {a : List UInt8} (h : divisionSign ++ a = c ++ divisionSign) :
    Trimmed (divisionSign ++ a) := by
  intro ch hch r
  have hm : utf8 [ch] ∈ spaceSequences := mem_space.mpr ⟨ch, hch, rfl⟩
  have hl := space_length hm
  constructor
  · intro he
    have hne : utf8 [ch] ≠ [] := by intro h0; rw [h0] at hl; simp at hl
    obtain ⟨x, xs, hx⟩ := List.exists_cons_of_ne_nil hne
    rw [hx] at he hm
    rw [List.cons_append, List.cons_append] at he
    have := (List.cons.inj he).1
    exact C3_notMem_space _ hm (by rw [← this]; simp)
  · intro he
    have hne : utf8 [ch] ≠ [] := by intro h0; rw [h0] at hl; simp at hl
    rw [h] at he
    have h1 : (c ++ divisionSign).getLast? = some 0xB7 := by simp
    rw [he, List.getLast?_append, List.getLast?_eq_some_getLast hne, Option.some_or, ← List.getLast?_eq_some_getLast hne] at h1
    exact B7_notMem_space _ hm (List.mem_of_getLast? h1)

theorem parseTestLine_test {line : List UInt8} {segs : List (List Char)} (h : IsTestLine line segs) :
    parseTestLine line = .ok (some (.ok { Input := utf8 segs.flatten, WantSegments := segs.map utf8 })) := by
  obtain ⟨_, w, rest, hw, hs, hb⟩ := h
  obtain ⟨core, w', rfl, hw', hc, hend⟩ := segments_core hs
  obtain ⟨c, b, hcut⟩ := bytesCut_body hb
  have hex : ∃ c, divisionSign ++ core = c ++ divisionSign := by
    rcases hend with rfl | ⟨c, rfl⟩
    · exact ⟨[], by simp⟩
    · exact ⟨divisionSign ++ c, by simp⟩
  obtain ⟨c', hc'⟩ := hex
  have hp : Padded (divisionSign ++ core) (w ++ divisionSign ++ (core ++ w')) :=
    ⟨trimmed_division hc', w, w', hw, hw', by simp⟩
  obtain ⟨pieces, h1, h2⟩ := parseSegs_segments hc (core.length + 2) (by omega)
  have hsplit : bytesSplit (divisionSign ++ core) splitMarker = .ok ([] :: pieces) := by
    have e : bytesCut (divisionSign ++ core) splitMarker = ([], core, true) :=
      bytesCut_division (a := []) (b := core) trivial
    unfold bytesSplit
    rw [show (divisionSign ++ core).length + 1 = (core.length + 2) + 1 by simp]
    unfold bytesSplitLoop
    simp only [e, h1, bind, Except.bind]
  have hseg : parseSegs ([] :: pieces) { Input := [], WantSegments := [] } =
      .ok (.ok { Input := utf8 segs.flatten, WantSegments := segs.map utf8 }) := by
    rw [parseSegs_spaces (w := []) ⟨[], by simp, rfl⟩, h2]
    simp
  unfold parseTestLine
  simp only [hcut, TrimSpace_padded hp]
  rw [if_neg (by simp)]
  simp only [hsplit, bind, Except.bind, hseg]

theorem parseTestLine_blank {line : List UInt8} (h : IsBlankLine line) : parseTestLine line = .ok none := by
  obtain ⟨w, hw, hb⟩ := h
  obtain ⟨c, b, hcut⟩ := bytesCut_body hb
  have hp : Padded [] w := by
    refine ⟨?_, w, [], hw, ⟨[], by simp, rfl⟩, by simp⟩
    rw [trimmed_iff]; decide +kernel
  unfold parseTestLine
  simp only [hcut, TrimSpace_padded hp]
  rfl

/-! ## The whole file -/

theorem nextTestEntry_of_collect {σ : Type} {read : Reader σ} {E : IOErr} (fuel : Nat) : ∀ {s : Scanner σ}
    {lines : List (List UInt8)} {ts : List (List (List Char))},
    s.collect ScanLines read maxScanTokenSize fuel = .ok (lines, errOf E) → TestLinesMean lines ts →
    ∃ r s', NextTestEntry read fuel s = .ok (r, s') ∧
      match ts with
      | [] => r = .error (.io E)
      | segs :: ts => ∃ ls f, r = .ok { Input := utf8 segs.flatten, WantSegments := segs.map utf8 } ∧ TestLinesMean ls ts ∧
          f < fuel ∧ s'.collect ScanLines read maxScanTokenSize f = .ok (ls, errOf E) := by
  induction fuel with
  | zero => intro s lines ts h; cases h
  | succ fuel ih =>
    intro s lines ts h hm
    unfold collect at h
    unfold NextTestEntry
    simp only [bind, Except.bind] at h ⊢
    cases hx : s.Scan ScanLines read maxScanTokenSize with
    | error e => rw [hx] at h; cases h
    | ok y =>
      obtain ⟨b, s1⟩ := y
      rw [hx] at h
      cases b with
      | false =>
        simp only [Except.ok.injEq, Prod.mk.injEq] at h
        obtain ⟨rfl, he⟩ := h
        cases hm
        exact ⟨_, _, rfl, by rw [errOf_end he]⟩
      | true =>
        simp only at h ⊢
        cases hy : s1.collect ScanLines read maxScanTokenSize fuel with
        | error e => rw [hy] at h; cases h
        | ok z =>
          obtain ⟨toks, e⟩ := z
          rw [hy] at h
          simp only [Except.ok.injEq, Prod.mk.injEq] at h
          obtain ⟨rfl, rfl⟩ := h
          cases hm with
          | skip _ _ _ hl hm =>
            rw [parseTestLine_blank hl]
            obtain ⟨r, s', h1, h2⟩ := ih hy hm
            refine ⟨r, s', h1, ?_⟩
            cases ts with
            | nil => exact h2
            | cons x es =>
              obtain ⟨ls, f, g1, g2, g3, g4⟩ := h2
              exact ⟨ls, f, g1, g2, by omega, g4⟩
          | test _ _ _ segs hl hm =>
            rw [parseTestLine_test hl]
            exact ⟨_, _, rfl, toks, fuel, rfl, hm, by omega, hy⟩

theorem allTestEntries_of_collect {σ : Type} {read : Reader σ} {E : IOErr} (fuel : Nat) : ∀ {s : Scanner σ}
    {lines : List (List UInt8)} {ts : List (List (List Char))},
    s.collect ScanLines read maxScanTokenSize fuel = .ok (lines, errOf E) → TestLinesMean lines ts →
    allTestEntries read fuel s = .ok (ts.map fun segs => { Input := utf8 segs.flatten, WantSegments := segs.map utf8 }, .io E) := by
  induction fuel with
  | zero => intro s lines ts h; cases h
  | succ fuel ih =>
    intro s lines ts h hm
    obtain ⟨r, s', h1, h2⟩ := nextTestEntry_of_collect (fuel + 1) h hm
    unfold allTestEntries
    simp only [bind, Except.bind, h1]
    cases ts with
    | nil => simp only at h2; subst h2; rfl
    | cons x es =>
      obtain ⟨ls, f, rfl, g3, g4, g5⟩ := h2
      have := ih (collect_mono f g5 fuel (by omega)) g3
      simp only [this]
      rfl

/-! ## No line makes the parser panic -/

theorem bytesSplitLoop_total (sep : List UInt8) (hsep : sep ≠ []) (fuel : Nat) : ∀ s : List UInt8, s.length < fuel →
    ∃ p, bytesSplitLoop sep fuel s = .ok p := by
  induction fuel with
  | zero => intro s h; omega
  | succ fuel ih =>
    intro s h
    unfold bytesSplitLoop
    rcases hc : bytesCut s sep with ⟨a, b, f⟩
    cases f with
    | false => exact ⟨_, rfl⟩
    | true =>
      have := congrArg List.length (bytesCut_found hc)
      simp only [List.length_append] at this
      have hp := List.length_pos_iff.mpr hsep
      obtain ⟨p, hp⟩ := ih b (by omega)
      simp only [hp, bind, Except.bind]
      exact ⟨_, rfl⟩

theorem parseSegs_total (segs : List (List UInt8)) : ∀ e, ∃ r, parseSegs segs e = .ok r := by
  induction segs with
  | nil => intro e; exact ⟨_, rfl⟩
  | cons s segs ih =>
    intro e
    obtain ⟨p, hp⟩ := bytesSplitLoop_total nonsplitMarker (by decide) (s.length + 1) s (by omega)
    unfold parseSegs
    simp only [bytesSplit, hp, bind, Except.bind]
    cases parseChars p e.Input [] with
    | error x => exact ⟨_, rfl⟩
    | ok x => exact ih _

theorem parseTestLine_total (line : List UInt8) : ∃ r, parseTestLine line = .ok r := by
  unfold parseTestLine
  rcases bytesCut line commentMarker with ⟨raw, a, b⟩
  simp only
  split
  · exact ⟨_, rfl⟩
  · obtain ⟨p, hp⟩ := bytesSplitLoop_total splitMarker (by decide) ((TrimSpace raw).length + 1) (TrimSpace raw) (by omega)
    obtain ⟨r, hr⟩ := parseSegs_total p { Input := [], WantSegments := [] }
    simp only [bytesSplit, hp, bind, Except.bind, hr]
    exact ⟨_, rfl⟩

theorem nextTestEntry_total {σ : Type} {read : Reader σ} (fuel : Nat) : ∀ {s : Scanner σ} {x : List (List UInt8) × Option IOErr},
    s.collect ScanLines read maxScanTokenSize fuel = .ok x →
    ∃ r s', NextTestEntry read fuel s = .ok (r, s') ∧
      ((∃ e, r = .error e) ∨ ∃ y f, f < fuel ∧ s'.collect ScanLines read maxScanTokenSize f = .ok y) := by
  induction fuel with
  | zero => intro s x h; cases h
  | succ fuel ih =>
    intro s x h
    unfold collect at h
    unfold NextTestEntry
    simp only [bind, Except.bind] at h ⊢
    cases hx : s.Scan ScanLines read maxScanTokenSize with
    | error e => rw [hx] at h; cases h
    | ok y =>
      obtain ⟨b, s1⟩ := y
      rw [hx] at h
      cases b with
      | false => exact ⟨_, _, rfl, Or.inl ⟨_, rfl⟩⟩
      | true =>
        simp only at h ⊢
        cases hy : s1.collect ScanLines read maxScanTokenSize fuel with
        | error e => rw [hy] at h; cases h
        | ok z =>
          obtain ⟨r, hr⟩ := parseTestLine_total (s1.Bytes.getD [])
          simp only [hr]
          cases r with
          | none =>
            obtain ⟨r, s', h1, h2⟩ := ih hy
            refine ⟨r, s', h1, ?_⟩
            rcases h2 with h2 | ⟨y, f, hf, h2⟩
            · exact Or.inl h2
            · exact Or.inr ⟨y, f, by omega, h2⟩
          | some r => exact ⟨_, _, rfl, Or.inr ⟨z, fuel, by omega, hy⟩⟩

theorem allTestEntries_total {σ : Type} {read : Reader σ} (fuel : Nat) : ∀ {s : Scanner σ} {x : List (List UInt8) × Option IOErr},
    s.collect ScanLines read maxScanTokenSize fuel = .ok x → ∃ r, allTestEntries read fuel s = .ok r := by
  induction fuel with
  | zero => intro s x h; cases h
  | succ fuel ih =>
    intro s x h
    obtain ⟨r, s', h1, h2⟩ := nextTestEntry_total (fuel + 1) h
    unfold allTestEntries
    simp only [bind, Except.bind, h1]
    rcases r with e | e
    · exact ⟨_, rfl⟩
    · rcases h2 with ⟨_, h2⟩ | ⟨y, f, hf, h2⟩
      · cases h2
      · obtain ⟨r, hr⟩ := ih (collect_mono f h2 fuel (by omega))
        simp only [hr]
        exact ⟨_, rfl⟩

end Textseg
