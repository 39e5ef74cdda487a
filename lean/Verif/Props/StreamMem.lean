import Verif.Proofs.StreamMem
import Verif.Props.Streaming
/-!
# The memory of streaming (C63)

`s.buf` is the buffer of the Scanner, and `s.old` is the list of the buffers it has used before and replaced by longer ones.
`scanTimes … n` makes `n` calls of `Scan`, whatever they return.
-/

namespace Textseg.Props
open Textseg Spec Scanner

/-- C63: for a reader that delivers `D`, in whatever pieces, and whose clusters have at most `L` bytes: after any number of calls of
`Scan`, the buffer is not longer than the initial one, 4096 bytes or `2 * (L + 3)`, whichever is the largest, however long `D` is;
and it is never longer than the initial one or the limit. Each buffer that was replaced had at most `L + 3` bytes, and all of them
together at most `2 * (L + 3)`. -/
theorem C63_memory {σ : Type} (read : Reader σ) (E : IOErr) (rd : σ) (D : List UInt8) (b0 M : Nat) (hC : 0 < max b0 M)
    (h : Delivers read E rd D 0) (toks : List (List UInt8)) (ht : tokens D = .ok toks) (L : Nat) (hL : ∀ t ∈ toks, t.length ≤ L)
    (n : Nat) :
    ∃ s, scanTimes ScanGraphemeClusters read M n (newScanner rd b0) = .ok s ∧
      s.buf.length ≤ max b0 (max 4096 (2 * (L + 3))) ∧ s.buf.length ≤ max b0 M ∧
      (∀ o ∈ s.old, o.length ≤ L + 3) ∧ (s.old.map List.length).sum ≤ 2 * (L + 3) := by
  obtain ⟨s, hs⟩ := C40_scan_always_returns read rd b0 M hC n
  have hm := scanTimes_memInv goodSplit_grapheme (shortAt_inv read E M (max b0 M) L) (b0 := b0) n
    ⟨newScanner_sane rd b0 M hC, fun _ => ⟨D, toks, newScanner_at read E rd D b0 M hC h, splitsTo_iff_tokens.mpr ht, hL⟩,
      fun _ => newScanner_mem rd b0 M (L + 3)⟩ hs
  have h' := hm.mem trivial
  have := h'.cur
  unfold startBufSize at this
  exact ⟨s, hs, by omega, by omega, h'.old, h'.sum⟩

/-- C63: also for readers that never end, as long as they count correctly: `s.rd.2` is what has been delivered so far. -/
theorem C63_endless {σ : Type} (read : Reader σ) (hh : Honest read) (rd : σ) (b0 M : Nat) (hC : 0 < max b0 M) (n : Nat) :
    ∃ s, scanTimes ScanGraphemeClusters (logged read) M n (newScanner (rd, []) b0) = .ok s ∧
      ∀ toks, tokens s.rd.2 = .ok toks → ∀ L, (∀ t ∈ toks, t.length ≤ L) →
        s.buf.length ≤ max b0 (max 4096 (2 * (L + 3))) ∧ s.buf.length ≤ max b0 M ∧
        (∀ o ∈ s.old, o.length ≤ L + 3) ∧ (s.old.map List.length).sum ≤ 2 * (L + 3) := by
  obtain ⟨s, hs⟩ := C40_scan_always_returns (logged read) (rd, []) b0 M hC n
  refine ⟨s, hs, fun toks ht L hL => ?_⟩
  have hm := scanTimes_memInv goodSplit_grapheme
    (emitted_inv hh M (max b0 M) s.rd.2 toks (splitsTo_iff_tokens.mpr ht) L hL) (b0 := b0) n
    ⟨newScanner_sane (rd, []) b0 M hC, fun _ => ⟨[], [], newScanner_emitted _ rd b0 M hC⟩,
      fun _ => newScanner_mem (rd, []) b0 M (L + 3)⟩ hs
  have h' := hm.mem List.prefix_rfl
  have := h'.cur
  unfold startBufSize at this
  exact ⟨by omega, by omega, h'.old, h'.sum⟩

/-- C63: with the defaults, a text whose clusters have at most 2045 bytes is read through a buffer of 4096 bytes. -/
theorem C63_default {σ : Type} (read : Reader σ) (E : IOErr) (rd : σ) (D : List UInt8) (h : Delivers read E rd D 0)
    (toks : List (List UInt8)) (ht : tokens D = .ok toks) (hL : ∀ t ∈ toks, t.length ≤ 2045) (n : Nat) :
    ∃ s, scanTimes ScanGraphemeClusters read maxScanTokenSize n (newScanner rd 0) = .ok s ∧ s.buf.length ≤ 4096 := by
  obtain ⟨s, h1, h2, -⟩ := C63_memory read E rd D 0 maxScanTokenSize (by decide) h toks ht 2045 hL n
  exact ⟨s, h1, by omega⟩

/-- C63: conversely, whatever the reader does, the buffer is at least as long as each token that has been returned, and as the
initial buffer. -/
theorem C63_at_least {σ : Type} (read : Reader σ) (rd : σ) (b0 M : Nat) (hC : 0 < max b0 M) (n : Nat) (toks : List (List UInt8))
    (s : Scanner σ) (h : collectUpTo ScanGraphemeClusters read M n (newScanner rd b0) = .ok (toks, s)) :
    b0 ≤ s.buf.length ∧ ∀ t ∈ toks, t.length ≤ s.buf.length := by
  obtain ⟨h1, h2⟩ := collectUpTo_grows n (newScanner_sane rd b0 M hC) h
  rw [newScanner, List.length_replicate] at h1
  exact ⟨h1, h2⟩

/-- "e" with three accents, "x", "y" (9 bytes) through an initial buffer of 2 bytes: it grows to 4 and to 8, and no more. -/
example : tokens (utf8 ['e', '\u0301', '\u0301', '\u0301', 'x', 'y']) =
      .ok [utf8 ['e', '\u0301', '\u0301', '\u0301'], utf8 ['x'], utf8 ['y']] ∧
    (scanTimes ScanGraphemeClusters dripReader 64 4 (newScanner (utf8 ['e', '\u0301', '\u0301', '\u0301', 'x', 'y']) 2)).map
      (fun s => (s.buf.length, s.old.map List.length)) = .ok (8, [2, 4]) ∧
    (collectUpTo ScanGraphemeClusters dripReader 64 1 (newScanner (utf8 ['e', '\u0301', '\u0301', '\u0301', 'x', 'y']) 2)).map
      (fun x => (x.1, x.2.buf.length)) = .ok ([utf8 ['e', '\u0301', '\u0301', '\u0301']], 8) := by decide +kernel

/-- A reader that delivers the letter "a" for ever: 20 tokens through a buffer of 4 bytes. -/
example : Honest (fun (_ : Unit) room => ⟨[0x61].take room, ([0x61].take room : List UInt8).length, none, ()⟩) ∧
    (scanTimes ScanGraphemeClusters (logged fun (_ : Unit) room =>
      ⟨[0x61].take room, ([0x61].take room : List UInt8).length, none, ()⟩) 64 20 (newScanner ((), []) 4)).map
      (fun s => (s.buf.length, s.old, s.rd.2.length)) = .ok (4, [], 21) := by
  refine ⟨fun _ room => ⟨rfl, ?_⟩, by decide +kernel⟩
  simp only [List.length_take]
  omega

end Textseg.Props
