import Verif.Proofs.Undecided
/-!
# Properties of a single call of ScanGraphemeClusters, and of repeated calls on a complete input
-/

namespace Textseg.Props
open Textseg Spec

/-- C01: for every input the split function returns normally (no panic, terminating) and with a nil error. -/
theorem C01_never_panics_never_fails (data : List UInt8) (atEOF : Bool) :
    ∃ r, ScanGraphemeClusters data atEOF = .ok r ∧ r.err = none := by
  obtain ⟨r, hr⟩ := ScanRes.total atEOF data
  refine ⟨_, scan_eq hr, ?_⟩
  cases r <;> rfl

/-- "e", COMBINING ACUTE ACCENT, "x": the token is the first three bytes. -/
example : ScanGraphemeClusters [0x65, 0xCC, 0x81, 0x78] false = .ok ⟨3, some [0x65, 0xCC, 0x81], none⟩ := by
  decide +kernel

/-- C02: the advance is within the data, the token is nil exactly if the advance is 0, and otherwise the token is the
consumed prefix. -/
theorem C02_token_is_consumed_prefix (data : List UInt8) (atEOF : Bool) (r : SplitResult)
    (h : ScanGraphemeClusters data atEOF = .ok r) :
    r.advance ≤ data.length ∧ (r.token = none ↔ r.advance = 0) ∧
    (∀ tok, r.token = some tok → tok = data.take r.advance) := by
  obtain ⟨r', hr⟩ := ScanRes.total atEOF data
  rw [scan_eq hr] at h
  cases h
  cases r' with
  | none => exact ⟨Nat.zero_le _, ⟨fun _ => rfl, fun _ => rfl⟩, fun tok ht => by cases ht⟩
  | some k =>
    obtain ⟨h1, h2⟩ := hr.bounds k rfl
    refine ⟨h2, ⟨fun h => (by cases h), fun h => (by simp [resultOf] at h; omega)⟩, fun tok ht => ?_⟩
    exact (Option.some.inj ht).symm

/-- Both forms of result occur. -/
example : (ScanGraphemeClusters [0x61, 0x62] false = .ok ⟨1, some [0x61], none⟩) ∧
    (ScanGraphemeClusters [0x61] false = .ok ⟨0, none, none⟩) := by decide +kernel

/-- C03: at end of input every call on non-empty data makes progress; empty data gives `(0, nil, nil)`. -/
theorem C03_progress_at_eof (data : List UInt8) (hd : data ≠ []) :
    ∃ r tok, ScanGraphemeClusters data true = .ok r ∧ r.token = some tok ∧ 1 ≤ r.advance := by
  obtain ⟨r, hr⟩ := ScanRes.total true data
  have := hr.eof hd
  match r, this with
  | some k, _ => exact ⟨_, _, scan_eq hr, rfl, (hr.bounds k rfl).1⟩

theorem C03_empty (atEOF : Bool) : ScanGraphemeClusters [] atEOF = .ok ⟨0, none, none⟩ := rfl

/-- The beginning of a three-byte sequence at end of input: progress by one byte. -/
example : ScanGraphemeClusters [0xE2, 0x82] true = .ok ⟨1, some [0xE2], none⟩ := by decide +kernel

/-- C04: repeated calls at end of input give finitely many non-empty tokens whose concatenation is the input. -/
theorem C04_tokens_partition_input (data : List UInt8) :
    ∃ toks, tokens data = .ok toks ∧ toks.flatten = data ∧ ∀ t ∈ toks, t ≠ [] := by
  obtain ⟨ps, segs, hps, hs, ht⟩ := exists_clusters data
  have hseg := clusters_segmentation hs
  refine ⟨_, ht, ?_, ?_⟩
  · rw [← piecesBytes_flatten, hseg.concat, pieces_bytes hps]
  · intro t htm
    obtain ⟨s, h1, rfl⟩ := List.mem_map.mp htm
    have := piecesBytes_length_pos (ps := s) (fun p hp => pieces_ne_nil hps p (by
      rw [← hseg.concat]; exact List.mem_flatten.mpr ⟨s, h1, hp⟩)) (hseg.nonempty s h1)
    exact List.length_pos_iff.mp this

/-- CR LF, a stray continuation byte, "a", a cut-off sequence. -/
example : tokens [0x0D, 0x0A, 0x80, 0x61, 0xE2, 0x82] = .ok [[0x0D, 0x0A], [0x80], [0x61], [0xE2], [0x82]] := by
  decide +kernel

/-- C09: a token that was returned without knowing the rest of the input is returned whatever the rest is. -/
theorem C09_decided_token_is_final (data : List UInt8) (r : SplitResult) (tok : List UInt8)
    (h : ScanGraphemeClusters data false = .ok r) (ht : r.token = some tok) (more : List UInt8) (atEOF : Bool) :
    ScanGraphemeClusters (data ++ more) atEOF = .ok r := by
  obtain ⟨r', hr⟩ := ScanRes.total false data
  rw [scan_eq hr] at h
  cases h
  match r' with
  | none => cases ht
  | some k =>
    rw [scan_eq (hr.append atEOF more)]
    have := (hr.bounds k rfl).2
    rw [resultOf, resultOf, List.take_append_of_le_length this]

/-- The hypothesis holds: a flag followed by a third regional indicator. -/
example : ScanGraphemeClusters [0xF0, 0x9F, 0x87, 0xA6, 0xF0, 0x9F, 0x87, 0xA7, 0xF0, 0x9F, 0x87, 0xA8] false =
    .ok ⟨8, some [0xF0, 0x9F, 0x87, 0xA6, 0xF0, 0x9F, 0x87, 0xA7], none⟩ := by decide +kernel

/-- C13: without end of input, the function asks for more data exactly if the data consists of complete sequences
without any boundary between them, possibly followed by an incomplete sequence. So as soon as a cluster is followed by a
boundary and a complete sequence, or by an invalid byte, a token is produced (by C01/C02). -/
theorem C13_waits_only_when_undecided (data : List UInt8) :
    ScanGraphemeClusters data false = .ok ⟨0, none, none⟩ ↔
    ∃ ss tail, data = ss.flatten ++ tail ∧ (∀ s ∈ ss, IsSeq s) ∧ (tail = [] ∨ IsIncomplete tail) ∧
      ∀ before after, ss = before ++ after → before ≠ [] → after ≠ [] →
        ¬ Boundary (before.map seqProps) (after.map seqProps) := by
  rw [← scanRes_none_iff]
  constructor
  · intro h
    obtain ⟨r', hr⟩ := ScanRes.total false data
    rw [scan_eq hr] at h
    cases r' with
    | none => exact hr
    | some k => cases h
  · exact fun h => scan_eq h

/-- Undecided: "a", COMBINING ACUTE ACCENT, and the first byte of another sequence. Decided: with that sequence complete. -/
example : ScanGraphemeClusters [0x61, 0xCC, 0x81, 0xCC] false = .ok ⟨0, none, none⟩ ∧
    ScanGraphemeClusters [0x61, 0xCC, 0x81, 0xC3, 0xA9] false = .ok ⟨3, some [0x61, 0xCC, 0x81], none⟩ := by decide +kernel

end Textseg.Props
