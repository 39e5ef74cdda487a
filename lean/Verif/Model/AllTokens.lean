import Verif.Model.Readers
/-!
# Model of textseg/all_tokens_test.go
-/

namespace Textseg

/-- A slice `b[lo:hi]` of the `buf`-th buffer that the Scanner allocated. -/
structure SliceRef where
  buf : Nat
  lo : Nat
  hi : Nat
deriving DecidableEq, Repr

/-- The bytes that a slice consists of, given the contents of all buffers. -/
def SliceRef.read (heap : List (List UInt8)) (r : SliceRef) : Go (List UInt8) :=
  match heap[r.buf]? with
  | some b => if r.lo ≤ r.hi ∧ r.hi ≤ b.length then .ok ((b.take r.hi).drop r.lo) else .error .sliceOutOfRange
  | none => .error .indexOutOfRange

/-- The buffers that the Scanner has used so far, oldest first, with their present contents. -/
def Scanner.heap {σ : Type} (s : Scanner σ) : List (List UInt8) := s.old ++ [s.buf]

/-- `s.Bytes()` as a slice rather than as bytes, after `Scan` has returned a token: with a split function that returns
`data[:n]` as the token of `n` bytes (grapheme_clusters.go:24, 30, 43, 55, 63, 73) it is the part of the buffer of the
length of the token before `s.start`. -/
def Scanner.bytesRef {σ : Type} (s : Scanner σ) : SliceRef :=
  { buf := s.old.length, lo := s.start - (s.token.getD []).length, hi := s.start }

/-- all_tokens_test.go:19-21: `for scanner.Scan() { ret = append(ret, scanner.Bytes()) }`. `ret` consists of slices of the
buffers of the Scanner, not of copies. -/
def collectRefs {σ : Type} (split : SplitFunc) (read : Reader σ) (maxTokenSize : Nat) :
    (fuel : Nat) → Scanner σ → Go (List SliceRef × Scanner σ)
  | 0, _ => .error .outOfFuel
  | fuel + 1, s => do
    match ← s.Scan split read maxTokenSize with
    | (true, s) => do
      let (refs, s') ← collectRefs split read maxTokenSize fuel s
      .ok (s.bytesRef :: refs, s')
    | (false, s) => .ok ([], s)

/-- all_tokens_test.go:15-23 `allTokens`, and what its caller sees in the slices of the result. -/
def allTokens (buf : List UInt8) (split : SplitFunc) : Go (List (List UInt8) × Option IOErr) := do
  let (refs, s) ← collectRefs split bytesReader maxScanTokenSize (buf.length + 1) (newScanner buf 0)
  let toks ← refs.mapM (SliceRef.read s.heap)
  .ok (toks, s.Err)

end Textseg
