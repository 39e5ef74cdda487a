import Verif.Proofs.UCDSlices
/-!
# The fields of an entry are a part of the buffer of the line Scanner (C64)

`NextEntryRef` is `NextEntry` with `Fields` as what it is in the Go code, a slice of the buffer. `allEntries` (C34, C35, C44, C45) is
the loop over all entries with `Fields` as a value.
-/

namespace Textseg.Props
open Textseg Spec Scanner

/-- C64: whatever the reader does: a loop that uses each entry before it asks for the next one sees the entries with the values that
they had when they were returned, as `allEntries` has them. This is how the generator and the tests use entries. -/
theorem C64_use_before_next {σ α : Type} (read : Reader σ) (rd : σ) (use : Entry → α) (fuel : Nat) :
    useEntries read use fuel (newScanner rd 0) =
      (allEntries read fuel (newScanner rd 0)).map (fun x => (x.1.map use, x.2)) :=
  useEntries_spec read use fuel (newScanner_sane rd 0 maxScanTokenSize (by decide))

/-- C64: whoever keeps the entries finds the same in them at the end, if the file has at most 2049 bytes (and the reader keeps to its
contract) and is read to its end. -/
theorem C64_kept_entries {σ : Type} (read : Reader σ) (E : IOErr) (rd : σ) (D : List UInt8) (hE : E ≠ .badReadCount)
    (hn : D.length ≤ 2049) (h : Delivers read E rd D 0) (fuel : Nat) (es : List Entry) (F : IOErr)
    (hes : allEntries read fuel (newScanner rd 0) = .ok (es, .io F)) :
    ∃ xs s, keepEntries read fuel (newScanner rd 0) = .ok (xs, .io F, s) ∧ xs.mapM (EntryRef.read s.heap) = .ok es := by
  obtain ⟨xs, s, h1, -, h3⟩ := keepEntries_kept hE hn fuel (.fresh rfl rfl rfl rfl rfl h)
    (newScanner_sane rd 0 maxScanTokenSize (by decide)) hes
  exact ⟨xs, s, h1, h3⟩

/-- A file of three lines: "1;a", a comment of 2044 bytes, "2;b" (without a line feed). -/
def longFile : List UInt8 := [0x31, 0x3B, 0x61, 0x0A] ++ List.replicate 2044 0x23 ++ [0x0A] ++ [0x32, 0x3B, 0x62]

/-- C64: in a file of 2052 bytes the fields of the first entry change when the second one is read: from "a" to "b". -/
theorem C64_overwritten : longFile.length = 2052 ∧
    (allEntries bytesReader 5 (newScanner longFile 0)).map (fun x => (x.1.map (·.Fields), x.2)) =
      .ok ([[0x61], [0x62]], .io .eof) ∧
    (keepEntries bytesReader 5 (newScanner longFile 0)).map
      (fun x => ((x.1.mapM (EntryRef.read x.2.2.heap)).map (List.map (·.Fields)), x.2.1)) =
      .ok (.ok [[0x62], [0x62]], .io .eof) := by
  decide +kernel

/-- The same two entries in a short file, through a reader that gives one byte at a time: both as kept and as used. -/
example : (allEntries dripReader 5 (newScanner [0x31, 0x3B, 0x20, 0x61, 0x0A, 0x32, 0x3B, 0x62] 0)) =
      .ok ([⟨1, 2, [0x61]⟩, ⟨2, 3, [0x62]⟩], .io .eof) ∧
    (keepEntries dripReader 5 (newScanner [0x31, 0x3B, 0x20, 0x61, 0x0A, 0x32, 0x3B, 0x62] 0)).map (fun x => (x.1, x.2.1)) =
      .ok ([⟨1, 2, ⟨1, 3, 4⟩⟩, ⟨2, 3, ⟨1, 7, 8⟩⟩], .io .eof) ∧
    (useEntries dripReader (fun e => firstString e.Fields) 5 (newScanner [0x31, 0x3B, 0x20, 0x61, 0x0A, 0x32, 0x3B, 0x62] 0)) =
      .ok ([[0x61], [0x62]], .io .eof) := by decide +kernel

end Textseg.Props
