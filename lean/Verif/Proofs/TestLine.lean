import Verif.Proofs.TestDataParse
import Verif.Proofs.GenTree
import Verif.Spec.TestLine
/-!
# The test data parser on any line
-/

namespace Textseg
open Spec Scanner

/-! ## Cutting at a mark of two different bytes -/

theorem bytesIndex_pair_none {x y : UInt8} {s : List UInt8} : bytesIndex [x, y] s = none ↔ ¬ [x, y] <:+: s := by
  induction s with
  | nil => simp [bytesIndex, List.infix_iff_prefix_suffix]
  | cons c s ih =>
    unfold bytesIndex
    rw [List.infix_cons_iff, ← List.isPrefixOf_iff_prefix]
    by_cases hp : [x, y].isPrefixOf (c :: s) = true
    · simp [hp]
    · simp only [hp, if_false, Option.map_eq_none_iff, ih, false_or, Bool.false_eq_true]

theorem bytesIndex_pair_some {x y : UInt8} (hxy : x ≠ y) {s rest : List UInt8} (h : ¬ [x, y] <:+: s) :
    bytesIndex [x, y] (s ++ [x, y] ++ rest) = some s.length := by
  induction s with
  | nil => simp [bytesIndex, List.isPrefixOf]
  | cons c s ih =>
    rw [List.infix_cons_iff, not_or] at h
    have hp : ¬ [x, y].isPrefixOf (c :: (s ++ [x, y] ++ rest)) = true := by
      rw [List.isPrefixOf_iff_prefix]
      rintro ⟨r, hr⟩
      rw [List.cons_append, List.cons_append, List.nil_append] at hr
      obtain ⟨hc, hr⟩ := List.cons.inj hr
      cases s with
      | nil =>
        rw [List.nil_append, List.cons_append] at hr
        exact hxy (List.cons.inj hr).1.symm
      | cons d s =>
        rw [List.cons_append, List.cons_append] at hr
        apply h.1
        exact ⟨s, by rw [hc, (List.cons.inj hr).1]; rfl⟩
    show bytesIndex [x, y] (c :: (s ++ [x, y] ++ rest)) = _
    unfold bytesIndex
    rw [if_neg hp, ih h.2]
    rfl

theorem bytesCut_pair {x y : UInt8} (hxy : x ≠ y) {s rest : List UInt8} (h : ¬ [x, y] <:+: s) :
    bytesCut (s ++ [x, y] ++ rest) [x, y] = (s, rest, true) := by
  unfold bytesCut
  rw [bytesIndex_pair_some hxy h]
  simp only [Prod.mk.injEq, and_true]
  constructor
  · simp
  · rw [List.append_assoc, List.drop_append, List.drop_of_length_le (by omega), Nat.add_sub_cancel_left, List.nil_append, List.drop_left]

theorem bytesIndex_first {x y : UInt8} : ∀ {s : List UInt8} {i : Nat}, bytesIndex [x, y] s = some i → ¬ [x, y] <:+: s.take i := by
  intro s
  induction s with
  | nil => intro i h; simp [bytesIndex] at h
  | cons c s ih =>
    intro i h
    unfold bytesIndex at h
    split at h
    · cases h; simp
    · rename_i hp
      obtain ⟨j, hj, rfl⟩ := Option.map_eq_some_iff.mp h
      rw [List.take_succ_cons, List.infix_cons_iff, not_or]
      refine ⟨?_, ih hj⟩
      rintro ⟨r, hr⟩
      apply hp
      rw [List.isPrefixOf_iff_prefix]
      refine ⟨r ++ s.drop j, ?_⟩
      rw [← List.append_assoc, hr, List.cons_append, List.take_append_drop]

theorem splitBy_iff {x y : UInt8} (hxy : x ≠ y) {s : List UInt8} {ps : List (List UInt8)} :
    SplitBy [x, y] s ps ↔ bytesSplit s [x, y] = .ok ps := by
  have one : ∀ {s ps}, SplitBy [x, y] s ps → ∀ fuel, s.length < fuel → bytesSplitLoop [x, y] fuel s = .ok ps := by
    intro s ps h
    induction h with
    | last s h =>
      intro fuel hf
      match fuel, hf with
      | fuel + 1, _ =>
        rw [bytesSplitLoop, bytesCut, bytesIndex_pair_none.mpr h]
    | cons s rest ps h _ ih =>
      intro fuel hf
      simp only [List.length_append, List.length_cons, List.length_nil] at hf
      match fuel, hf with
      | fuel + 1, hf =>
        rw [bytesSplitLoop, bytesCut_pair hxy h]
        simp only [ih fuel (by omega), bind, Except.bind]
  have two : ∀ fuel s, s.length < fuel → ∃ ps, SplitBy [x, y] s ps := by
    intro fuel
    induction fuel with
    | zero => intro s h; omega
    | succ fuel ih =>
      intro s h
      cases hi : bytesIndex [x, y] s with
      | none => exact ⟨_, .last s (bytesIndex_pair_none.mp hi)⟩
      | some i =>
        have hc : bytesCut s [x, y] = (s.take i, s.drop (i + 2), true) := by rw [bytesCut, hi]; rfl
        have hs := bytesCut_found hc
        have hl := congrArg List.length hs
        simp only [List.length_append, List.length_cons, List.length_nil] at hl
        obtain ⟨ps, hps⟩ := ih (s.drop (i + 2)) (by omega)
        rw [hs]
        exact ⟨_, .cons _ _ _ (bytesIndex_first hi) hps⟩
  constructor
  · intro h
    exact one h _ (by omega)
  · intro h
    obtain ⟨ps', hps⟩ := two (s.length + 1) s (by omega)
    have := one hps _ (Nat.lt_succ_self _)
    rw [bytesSplit, this, Except.ok.injEq] at h
    rw [← h]
    exact hps

/-! ## Numbers -/

theorem ParseInt_iff {t : List UInt8} {v : Int} : ParseInt t = some v ↔ IsSignedHex t v ∧ Is32Bit v := by
  unfold Is32Bit
  cases t with
  | nil =>
    constructor
    · intro h; cases h
    · rintro ⟨h, _⟩
      cases h with
      | plain _ n h => exact absurd rfl (isHex_ne_nil h)
  | cons c t =>
    by_cases hp : c = 0x2B
    · subst hp
      have e : ParseInt (0x2B :: t) = (ParseUint t).bind fun un => if 2 ^ 31 ≤ un then none else some (un : Int) := by
        unfold ParseInt
        simp only [true_or, if_true]
        cases ParseUint t with
        | none => rfl
        | some un => simp
      rw [e]
      constructor
      · intro h
        obtain ⟨un, h1, h2⟩ := Option.bind_eq_some_iff.mp h
        split at h2
        · cases h2
        · cases h2
          exact ⟨.plus _ _ (ParseUint_iff.mp h1).1, by omega, by omega⟩
      · rintro ⟨h, h1, h2⟩
        cases h with
        | plain _ n h => exact absurd List.mem_cons_self (isHex_notMem hexDigitVal_sign.1 h)
        | plus _ n h =>
          rw [ParseUint_iff.mpr ⟨h, by omega⟩, Option.bind_some, if_neg (by omega)]
    · by_cases hm : c = 0x2D
      · subst hm
        have e : ParseInt (0x2D :: t) = (ParseUint t).bind fun un => if 2 ^ 31 < un then none else some (- (un : Int)) := by
          unfold ParseInt
          simp only [or_true, if_true]
          cases ParseUint t with
          | none => rfl
          | some un => simp
        rw [e]
        constructor
        · intro h
          obtain ⟨un, h1, h2⟩ := Option.bind_eq_some_iff.mp h
          split at h2
          · cases h2
          · cases h2
            exact ⟨.minus _ _ (ParseUint_iff.mp h1).1, by omega, by omega⟩
        · rintro ⟨h, h1, h2⟩
          cases h with
          | plain _ n h => exact absurd List.mem_cons_self (isHex_notMem hexDigitVal_sign.2 h)
          | minus _ n h =>
            rw [ParseUint_iff.mpr ⟨h, by omega⟩, Option.bind_some, if_neg (by omega)]
      · have e : ParseInt (c :: t) = (ParseUint (c :: t)).bind fun un => if 2 ^ 31 ≤ un then none else some (un : Int) := by
          unfold ParseInt
          simp only [hp, hm, or_self, if_false]
          cases ParseUint (c :: t) with
          | none => rfl
          | some un => simp
        rw [e]
        constructor
        · intro h
          obtain ⟨un, h1, h2⟩ := Option.bind_eq_some_iff.mp h
          split at h2
          · cases h2
          · cases h2
            exact ⟨.plain _ _ (ParseUint_iff.mp h1).1, by omega, by omega⟩
        · rintro ⟨h, h1, h2⟩
          cases h with
          | plain _ n h =>
            rw [ParseUint_iff.mpr ⟨h, by omega⟩, Option.bind_some, if_neg (by omega)]
          | plus => exact absurd rfl hp
          | minus => exact absurd rfl hm

theorem EncodeRune_charFor {v : Int} (h : Is32Bit v) : EncodeRune (toRune v) = utf8 [charFor v] := by
  have e : (toRune v).toInt = v := by
    unfold toRune
    exact Int32.toInt_ofInt_of_le h.1 h.2
  rw [Gen.EncodeRune_eq, Gen.runeChar, e]
  simp [utf8, charFor]

/-! ## Pieces, segments, lines -/

theorem piece_spec {p : List UInt8} {r : Except (List UInt8) (List Char)} (h : PieceMeans p r) (rest : List (List UInt8))
    (input cur : List UInt8) :
    parseChars (p :: rest) input cur = match r with
      | .ok cs => parseChars rest (input ++ utf8 cs) (cur ++ utf8 cs)
      | .error t => .error (.invalidChar t) := by
  conv => lhs; rw [parseChars]
  cases h with
  | blank h => simp [TrimSpace_padded h, utf8]
  | char t v h h1 h2 =>
    have hne : t.length ≠ 0 := by
      intro e
      rw [List.eq_nil_of_length_eq_zero e] at h1
      have := ParseInt_iff.mpr ⟨h1, h2⟩
      cases this
    simp only [TrimSpace_padded h, if_neg hne, ParseInt_iff.mpr ⟨h1, h2⟩, EncodeRune_charFor h2]
  | bad t h h1 h2 =>
    have hne : t.length ≠ 0 := fun e => h1 (List.eq_nil_of_length_eq_zero e)
    have hn : ParseInt t = none := by
      cases hx : ParseInt t with
      | none => rfl
      | some v => exact absurd (ParseInt_iff.mp hx).2 (h2 v (ParseInt_iff.mp hx).1)
    simp only [TrimSpace_padded h, if_neg hne, hn]

theorem segment_spec {ps : List (List UInt8)} {r : Except (List UInt8) (List Char)} (h : SegmentMeans ps r) : ∀ input cur,
    parseChars ps input cur = match r with
      | .ok cs => .ok (input ++ utf8 cs, cur ++ utf8 cs)
      | .error t => .error (.invalidChar t) := by
  induction h with
  | nil => intro input cur; simp [parseChars, utf8]
  | ok p ps cs cs' h _ ih =>
    intro input cur
    rw [piece_spec h]
    simp only
    rw [ih]
    simp [utf8]
  | here p ps t h => intro input cur; rw [piece_spec h]
  | later p ps cs t h _ ih =>
    intro input cur
    rw [piece_spec h]
    simp only
    rw [ih]

theorem splitBy_multiplication {s : List UInt8} {ps : List (List UInt8)} :
    SplitBy multiplicationSign s ps ↔ bytesSplit s nonsplitMarker = .ok ps := splitBy_iff (by decide)

theorem splitBy_division {s : List UInt8} {ps : List (List UInt8)} :
    SplitBy divisionSign s ps ↔ bytesSplit s splitMarker = .ok ps := splitBy_iff (by decide)

theorem utf8_eq_nil {cs : List Char} : utf8 cs = [] ↔ cs = [] := by
  constructor
  · intro h
    cases cs with
    | nil => rfl
    | cons c cs =>
      have h1 : String.utf8EncodeChar c ++ utf8 cs = [] := h
      have h3 := congrArg List.length (List.append_eq_nil_iff.mp h1).1
      rw [String.length_utf8EncodeChar] at h3
      exact absurd h3 (Nat.ne_of_gt (Char.utf8Size_pos c))
  · rintro rfl; rfl

theorem segments_spec {ss : List (List UInt8)} {r : Except (List UInt8) (List (List Char))} (h : SegmentsMean ss r) : ∀ e : TestDataEntry,
    parseSegs ss e = .ok (match r with
      | .ok css => .ok { Input := e.Input ++ utf8 css.flatten,
                         WantSegments := e.WantSegments ++ (css.filter fun cs => !cs.isEmpty).map utf8 }
      | .error t => .error (.invalidChar t)) := by
  induction h with
  | nil => intro e; simp [parseSegs, utf8]
  | ok s ps ss cs css h1 h2 _ ih =>
    intro e
    rw [parseSegs, splitBy_multiplication.mp h1]
    simp only [bind, Except.bind, segment_spec h2, ih, List.nil_append]
    by_cases hc : cs = []
    · subst hc; simp [utf8]
    · have hl : ¬ (utf8 cs).length = 0 := fun h0 => hc (utf8_eq_nil.mp (List.eq_nil_of_length_eq_zero h0))
      have hb : cs.isEmpty = false := by simpa using hc
      simp only [hl, not_false_eq_true, ne_eq, if_true, List.filter_cons, hb, Bool.not_false, List.map_cons,
        List.flatten_cons, Except.ok.injEq, TestDataEntry.mk.injEq]
      constructor
      · simp [utf8]
      · simp
  | here s ps ss t h1 h2 =>
    intro e
    rw [parseSegs, splitBy_multiplication.mp h1]
    simp only [bind, Except.bind, segment_spec h2]
  | later s ps ss cs t h1 h2 _ ih =>
    intro e
    rw [parseSegs, splitBy_multiplication.mp h1]
    simp only [bind, Except.bind, segment_spec h2, ih]

theorem flatten_filter {α : Type} (css : List (List α)) : (css.filter fun cs => !cs.isEmpty).flatten = css.flatten := by
  induction css with
  | nil => rfl
  | cons cs css ih =>
    cases cs with
    | nil => simpa using ih
    | cons c cs => simp [ih]

/-- What `parseTestLine` returns for a meaning. -/
def testResult : Option (Except (List UInt8) (List (List Char))) → Option (Except ParseErr TestDataEntry)
  | none => none
  | some (.ok segs) => some (.ok { Input := utf8 segs.flatten, WantSegments := segs.map utf8 })
  | some (.error t) => some (.error (.invalidChar t))

theorem line_spec {line : List UInt8} {r : Option (Except (List UInt8) (List (List Char)))} (h : TestLineMeans line r) :
    parseTestLine line = .ok (testResult r) := by
  cases h with
  | blank h => exact parseTestLine_blank h
  | test body core ss css hb hp hne hs hm =>
    obtain ⟨c, b, hcut⟩ := bytesCut_body hb
    have hl : ¬ core.length = 0 := fun e => hne (List.eq_nil_of_length_eq_zero e)
    unfold parseTestLine
    simp only [hcut, TrimSpace_padded hp, if_neg hl, splitBy_division.mp hs, bind, Except.bind, segments_spec hm,
      testResult, flatten_filter, List.nil_append]
  | bad body core ss t hb hp hne hs hm =>
    obtain ⟨c, b, hcut⟩ := bytesCut_body hb
    have hl : ¬ core.length = 0 := fun e => hne (List.eq_nil_of_length_eq_zero e)
    unfold parseTestLine
    simp only [hcut, TrimSpace_padded hp, if_neg hl, splitBy_division.mp hs, bind, Except.bind, segments_spec hm,
      testResult]

/-! ## Every line has a meaning -/

theorem piece_exists (p : List UInt8) : ∃ r, PieceMeans p r := by
  have hp := padded_TrimSpace p
  by_cases h : TrimSpace p = []
  · rw [h] at hp; exact ⟨_, .blank p hp⟩
  · cases hx : ParseInt (TrimSpace p) with
    | some v =>
      obtain ⟨h1, h2⟩ := ParseInt_iff.mp hx
      exact ⟨_, .char p _ v hp h1 h2⟩
    | none =>
      refine ⟨_, .bad p _ hp h fun v h1 h2 => ?_⟩
      rw [ParseInt_iff.mpr ⟨h1, h2⟩] at hx
      cases hx

theorem segment_exists (ps : List (List UInt8)) : ∃ r, SegmentMeans ps r := by
  induction ps with
  | nil => exact ⟨_, .nil⟩
  | cons p ps ih =>
    obtain ⟨r, hr⟩ := piece_exists p
    obtain ⟨r', hr'⟩ := ih
    cases r with
    | error t => exact ⟨_, .here _ _ _ hr⟩
    | ok cs =>
      cases r' with
      | error t => exact ⟨_, .later _ _ _ _ hr hr'⟩
      | ok cs' => exact ⟨_, .ok _ _ _ _ hr hr'⟩

theorem segments_exists (ss : List (List UInt8)) : ∃ r, SegmentsMean ss r := by
  induction ss with
  | nil => exact ⟨_, .nil⟩
  | cons s ss ih =>
    obtain ⟨ps, hps⟩ := bytesSplitLoop_total nonsplitMarker (by decide) (s.length + 1) s (by omega)
    have hps := splitBy_multiplication.mpr hps
    obtain ⟨r, hr⟩ := segment_exists ps
    obtain ⟨r', hr'⟩ := ih
    cases r with
    | error t => exact ⟨_, .here _ _ _ _ hps hr⟩
    | ok cs =>
      cases r' with
      | error t => exact ⟨_, .later _ _ _ _ _ hps hr hr'⟩
      | ok cs' => exact ⟨_, .ok _ _ _ _ _ hps hr hr'⟩

theorem line_exists (line : List UInt8) : ∃ r, TestLineMeans line r := by
  obtain ⟨body, hb⟩ := body_exists line
  have hp := padded_TrimSpace body
  by_cases h : TrimSpace body = []
  · rw [h] at hp
    obtain ⟨_, w, w', ⟨a, ha, ea⟩, ⟨b, hb', eb⟩, e⟩ := hp
    refine ⟨_, .blank line ⟨body, ⟨a ++ b, ?_, ?_⟩, hb⟩⟩
    · intro c hc
      rcases List.mem_append.mp hc with hc | hc
      · exact ha c hc
      · exact hb' c hc
    · rw [e, ea, eb]; simp [utf8]
  · obtain ⟨ss, hss⟩ := bytesSplitLoop_total splitMarker (by decide) ((TrimSpace body).length + 1) _ (Nat.lt_succ_self _)
    have hss := splitBy_division.mpr hss
    obtain ⟨r, hr⟩ := segments_exists ss
    cases r with
    | ok css => exact ⟨_, .test _ _ _ _ _ hb hp h hss hr⟩
    | error t => exact ⟨_, .bad _ _ _ _ _ hb hp h hss hr⟩

theorem testFile_exists (lines : List (List UInt8)) : ∃ ts e, TestFileMeans lines ts e := by
  induction lines with
  | nil => exact ⟨_, _, .done⟩
  | cons l ls ih =>
    obtain ⟨ts, e, h⟩ := ih
    obtain ⟨r, hr⟩ := line_exists l
    match r, hr with
    | none, hr => exact ⟨_, _, .skip _ _ _ _ hr h⟩
    | some (.ok segs), hr => exact ⟨_, _, .test _ _ _ _ _ hr h⟩
    | some (.error t), hr => exact ⟨_, _, .bad _ _ _ hr⟩

/-! ## The whole file -/

theorem nextTestEntry_any {σ : Type} {read : Reader σ} {F : Option IOErr} {E : IOErr} (hE : ∀ s : Scanner σ, s.Err = F → endOfLines s = .io E)
    (fuel : Nat) : ∀ {s : Scanner σ} {lines : List (List UInt8)} {ts : List (List (List Char))} {e : Option (List UInt8)},
    s.collect ScanLines read maxScanTokenSize fuel = .ok (lines, F) → TestFileMeans lines ts e →
    ∃ r s', NextTestEntry read fuel s = .ok (r, s') ∧
      match ts with
      | [] => r = .error (match e with | none => .io E | some t => .invalidChar t)
      | segs :: ts => ∃ ls f, r = .ok { Input := utf8 segs.flatten, WantSegments := segs.map utf8 } ∧ TestFileMeans ls ts e ∧
          f < fuel ∧ s'.collect ScanLines read maxScanTokenSize f = .ok (ls, F) := by
  induction fuel with
  | zero => intro s lines ts e h; cases h
  | succ fuel ih =>
    intro s lines ts e h hm
    unfold collect at h
    unfold NextTestEntry
    simp only [bind, Except.bind] at h ⊢
    cases hx : s.Scan ScanLines read maxScanTokenSize with
    | error e => rw [hx] at h; cases h
    | ok y =>
      obtain ⟨b, s1⟩ := y
      rw [hx] at h
      cases b with
      | false =>
        simp only [Except.ok.injEq, Prod.mk.injEq] at h
        obtain ⟨rfl, he⟩ := h
        cases hm
        exact ⟨_, _, rfl, by rw [hE _ he]⟩
      | true =>
        simp only at h ⊢
        cases hy : s1.collect ScanLines read maxScanTokenSize fuel with
        | error e => rw [hy] at h; cases h
        | ok z =>
          obtain ⟨toks, e'⟩ := z
          rw [hy] at h
          simp only [Except.ok.injEq, Prod.mk.injEq] at h
          obtain ⟨rfl, rfl⟩ := h
          cases hm with
          | skip _ _ _ _ hl hm =>
            rw [line_spec hl]
            obtain ⟨r, s', h1, h2⟩ := ih hy hm
            refine ⟨r, s', h1, ?_⟩
            cases ts with
            | nil => exact h2
            | cons x es =>
              obtain ⟨ls, f, g1, g2, g3, g4⟩ := h2
              exact ⟨ls, f, g1, g2, by omega, g4⟩
          | test _ _ _ segs _ hl hm =>
            rw [line_spec hl]
            exact ⟨_, _, rfl, toks, fuel, rfl, hm, by omega, hy⟩
          | bad _ _ t hl =>
            rw [line_spec hl]
            exact ⟨_, _, rfl, rfl⟩

theorem allTestEntries_any {σ : Type} {read : Reader σ} {F : Option IOErr} {E : IOErr} (hE : ∀ s : Scanner σ, s.Err = F → endOfLines s = .io E)
    (fuel : Nat) : ∀ {s : Scanner σ} {lines : List (List UInt8)} {ts : List (List (List Char))} {e : Option (List UInt8)},
    s.collect ScanLines read maxScanTokenSize fuel = .ok (lines, F) → TestFileMeans lines ts e →
    allTestEntries read fuel s = .ok (ts.map fun segs => { Input := utf8 segs.flatten, WantSegments := segs.map utf8 },
      match e with | none => .io E | some t => .invalidChar t) := by
  induction fuel with
  | zero => intro s lines ts e h; cases h
  | succ fuel ih =>
    intro s lines ts e h hm
    obtain ⟨r, s', h1, h2⟩ := nextTestEntry_any hE (fuel + 1) h hm
    unfold allTestEntries
    simp only [bind, Except.bind, h1]
    cases ts with
    | nil => simp only at h2; subst h2; rfl
    | cons x es =>
      obtain ⟨ls, f, rfl, g3, g4, g5⟩ := h2
      have := ih (collect_mono f g5 fuel (by omega)) g3
      simp only [this]
      rfl

end Textseg
