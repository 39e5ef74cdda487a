import Verif.Model.UCDParse
import Verif.Model.AllTokens
/-!
# Model of textseg/internal/charprops/ucdparse/ucd_scan.go with slices instead of values

In `Model/UCDParse.lean` the `Fields` of an entry are a value. In the Go code they are a slice of a slice (`bytes.Cut`,
`bytes.TrimSpace`) of the slice that `lineScan.Bytes()` returns, which is a part of the buffer of the line Scanner. Here they are
modelled as that: a reference into one of the buffers.
-/

namespace Textseg

/-- `r[off:off+len]` -/
def SliceRef.sub (r : SliceRef) (off len : Nat) : SliceRef := { buf := r.buf, lo := r.lo + off, hi := r.lo + off + len }

namespace Scanner
variable {σ : Type}

/-- The loop of `Scan` (Model/BufioScanner.lean), and `Bytes()` as a slice: with a split function whose tokens are beginnings of the
data it is given, the token begins where the data of the last round begins. -/
def loopRef (split : SplitFunc) (read : Reader σ) (maxTokenSize : Nat) :
    (fuel : Nat) → Scanner σ → Go (Bool × Scanner σ × SliceRef)
  | 0, _ => .error .outOfFuel
  | fuel + 1, s => do
    match ← round split read maxTokenSize s with
    | (some b, s') => .ok (b, s', { buf := s'.old.length, lo := s.start, hi := s.start + (s'.token.getD []).length })
    | (none, s') => loopRef split read maxTokenSize fuel s'

/-- `s.Scan()`, followed by `s.Bytes()` as a slice. -/
def ScanRef (split : SplitFunc) (read : Reader σ) (maxTokenSize : Nat) (s : Scanner σ) : Go (Bool × Scanner σ × SliceRef) :=
  if s.done then .ok (false, s, ⟨0, 0, 0⟩)
  else loopRef split read maxTokenSize (max s.buf.length maxTokenSize + 2) s

end Scanner

/-- ucd_scan.go:62-66 `Entry`, with `Fields` as a slice. -/
structure EntryRef where
  Start : Rune
  End : Rune
  Fields : SliceRef
deriving DecidableEq, Repr

/-- Where `fieldsRaw` of ucd_scan.go:36 lies in the line: offset and length. `bytes.Cut` (31, 32) returns the beginning of its
argument and the part after the separator, `bytes.TrimSpace` (36) leaves out white space at both ends. -/
def fieldsSpan (raw : List UInt8) : Nat × Nat :=
  let raw := (bytesCut raw commentMarker).1
  match bytesIndex fieldSeparator raw with
  | none => (0, 0)
  | some i =>
    let fieldsRaw := raw.drop (i + fieldSeparator.length)
    (i + fieldSeparator.length + (fieldsRaw.length - (trimLeft fieldsRaw.length fieldsRaw).length), (TrimSpace fieldsRaw).length)

/-- ucd_scan.go:22-60 `Scanner.NextEntry` with slices. -/
def NextEntryRef {σ : Type} (read : Reader σ) : (fuel : Nat) → Scanner σ → Go (Except ParseErr EntryRef × Scanner σ)
  | 0, _ => .error .outOfFuel
  | fuel + 1, s => do
    match ← s.ScanRef ScanLines read maxScanTokenSize with
    | (false, s, _) => .ok (.error (endOfLines s), s)
    | (true, s, line) => do
      let raw ← line.read s.heap
      match parseLine raw with
      | none => NextEntryRef read fuel s
      | some (.error e) => .ok (.error e, s)
      | some (.ok e) =>
        let (off, len) := fieldsSpan raw
        .ok (.ok { Start := e.Start, End := e.End, Fields := line.sub off len }, s)

/-- What one finds in an entry, given the contents of the buffers. -/
def EntryRef.read (heap : List (List UInt8)) (e : EntryRef) : Go Entry := do
  let f ← e.Fields.read heap
  .ok { Start := e.Start, End := e.End, Fields := f }

/-- The loop `for { entry, err := sc.NextEntry(); if err != nil { break }; … }` as at gentable/generate.go:45-51, 58-64 and
75-80, where the entry is used before the next call of `NextEntry`: `use` is what the body of the loop does with it. -/
def useEntries {σ α : Type} (read : Reader σ) (use : Entry → α) : (fuel : Nat) → Scanner σ → Go (List α × ParseErr)
  | 0, _ => .error .outOfFuel
  | fuel + 1, s => do
    match ← NextEntryRef read (fuel + 1) s with
    | (.error e, _) => .ok ([], e)
    | (.ok entry, s) => do
      let v ← entry.read s.heap
      let (vs, e) ← useEntries read use fuel s
      .ok (use v :: vs, e)

/-- A loop that keeps the entries instead: the entries, the error, and the line Scanner afterwards. -/
def keepEntries {σ : Type} (read : Reader σ) : (fuel : Nat) → Scanner σ → Go (List EntryRef × ParseErr × Scanner σ)
  | 0, _ => .error .outOfFuel
  | fuel + 1, s => do
    match ← NextEntryRef read (fuel + 1) s with
    | (.error e, s) => .ok ([], e, s)
    | (.ok entry, s) => do
      let (es, e, s') ← keepEntries read fuel s
      .ok (entry :: es, e, s')

end Textseg
