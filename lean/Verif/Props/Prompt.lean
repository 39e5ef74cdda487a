import Verif.Props.Lookup
import Verif.Model.Scan
/-!
# C47: how promptly invalid bytes are reported
-/

namespace Textseg.Props
open Textseg Spec

/-- No continuation of `p` begins with a structurally well-formed sequence. -/
def Hopeless (p : List UInt8) : Prop := ¬ ∃ more bs rest, IsSeq bs ∧ p ++ more = bs ++ rest

/-- C47: the lookup reports a hopeless beginning as an error of length 1 as soon as there are as many bytes as the first byte
announces, and asks for more data before that. -/
theorem C47_lookup (p : List UInt8) (hp : p ≠ []) (hbad : Hopeless p) :
    (IsIncomplete p → LookupFirstChar p = .ok (0, 0)) ∧ (¬ IsIncomplete p → LookupFirstChar p = .ok (ErrorProps, 1)) := by
  refine ⟨fun h => ?_, C14_error_is_reported_partial p hp hbad⟩
  obtain ⟨b, t, n, rfl, h1, h2⟩ := h
  exact lookup_incomplete h1 h2

/-- C47: two more bytes always suffice. -/
theorem C47_two_more_bytes (p : List UInt8) (hp : p ≠ []) (hbad : Hopeless p) (more : List UInt8) (hm : 2 ≤ more.length) :
    LookupFirstChar (p ++ more) = .ok (ErrorProps, 1) := C14_error_after_two_more_bytes p hp hbad more hm

/-- C47: one more byte may be too few. -/
theorem C47_two_is_needed : Hopeless [0xF0, 0x41] ∧ LookupFirstChar [0xF0, 0x41] = .ok (0, 0) ∧
    LookupFirstChar [0xF0, 0x41, 0x42] = .ok (0, 0) := by
  refine ⟨?_, by decide +kernel, by decide +kernel⟩
  rintro ⟨more, bs, rest, h1, h2⟩
  exact not_startsWithSeq_badCont (b := 0xF0) (t := 0x41 :: more) (n := 4) (by decide)
    ⟨0x41, by simp, by decide⟩ ⟨bs, rest, h1, h2⟩

theorem scan_error {p : List UInt8} (hp : p ≠ []) (h : LookupFirstChar p = .ok (ErrorProps, 1)) (atEOF : Bool) :
    ScanGraphemeClusters p atEOF = .ok ⟨1, some (p.take 1), none⟩ := by
  unfold ScanGraphemeClusters
  have hl : (p.length == 0) = false := by
    cases p with
    | nil => exact absurd rfl hp
    | cons _ _ => simp
  have hl' : 1 ≤ p.length := by cases p with
    | nil => exact absurd rfl hp
    | cons _ _ => simp
  simp only [hl, Bool.false_eq_true, if_false, h, bind, Except.bind, beq_self_eq_true, if_true, emit, goSliceTo, if_pos hl']

/-- C47: the split function reports the first byte of a hopeless beginning as a token of its own at end of input, and
without end of input as soon as there are four bytes (at the latest). -/
theorem C47_split (p : List UInt8) (hp : p ≠ []) (hbad : Hopeless p) (atEOF : Bool) (h : atEOF = true ∨ 4 ≤ p.length) :
    ScanGraphemeClusters p atEOF = .ok ⟨1, some (p.take 1), none⟩ := by
  by_cases hi : IsIncomplete p
  · rcases h with rfl | h
    · have hl := (C47_lookup p hp hbad).1 hi
      unfold ScanGraphemeClusters
      have hlen : (p.length == 0) = false := by
        cases p with
        | nil => exact absurd rfl hp
        | cons _ _ => simp
      have hl' : 1 ≤ p.length := by cases p with
        | nil => exact absurd rfl hp
        | cons _ _ => simp
      have e : ((0 : CharProperties) == ErrorProps) = false := by decide
      simp only [hlen, Bool.false_eq_true, if_false, hl, bind, Except.bind, e, beq_self_eq_true, if_true, emit, goSliceTo,
        if_pos hl', Bool.and_true, gt_iff_lt, decide_eq_true_eq]
      rw [if_pos (by omega)]
    · obtain ⟨b, t, n, rfl, h1, h2⟩ := hi
      have := announced_le h1
      simp only [List.length_cons] at h h2
      omega
  · exact scan_error hp ((C47_lookup p hp hbad).2 hi) atEOF

/-- The hypotheses hold. -/
example : Hopeless [0xF0, 0x41, 0x42, 0x43] ∧
    ScanGraphemeClusters [0xF0, 0x41, 0x42, 0x43] false = .ok ⟨1, some [0xF0], none⟩ ∧
    ScanGraphemeClusters [0xF0, 0x41, 0x42] false = .ok ⟨0, none, none⟩ := by
  refine ⟨?_, by decide +kernel, by decide +kernel⟩
  rintro ⟨more, bs, rest, h1, h2⟩
  exact not_startsWithSeq_badCont (b := 0xF0) (t := 0x41 :: 0x42 :: 0x43 :: more) (n := 4) (by decide)
    ⟨0x41, by simp, by decide⟩ ⟨bs, rest, h1, h2⟩

end Textseg.Props
