import Verif.Model.Scan
/-!
# Model of `bufio.Scanner` (Go standard library, package bufio, file scan.go)

The library under verification hands its split function to `bufio.Scanner` (README.md:58-62,
textseg/all_tokens_test.go:15-23, textseg/grapheme_clusters_test.go `dripReader`,
textseg/internal/charprops/ucdparse/ucd_scan.go:17-21). The Scanner is not part of /repo; this file transcribes
`Scanner.Scan`, `advance`, `setErr`, `Err` and `ScanLines` of the standard library from knowledge of their source; the
transcription is part of the trusted base (DESIGN.md). The reader is an arbitrary state machine.

Simplifications: `advance` of a split function is a natural number, so `ErrNegativeAdvance` cannot occur; the check
`len(s.buf) > maxInt/2` is left out (buffers have unbounded size in the model); `ErrFinalToken` is recognised by its
message instead of its identity (no split function here returns it).
-/

namespace Textseg

/-- Error values the Scanner distinguishes. -/
inductive IOErr where
  /-- `io.EOF` -/
  | eof
  /-- `bufio.ErrTooLong` -/
  | tooLong
  /-- `bufio.ErrBadReadCount` -/
  | badReadCount
  /-- `io.ErrNoProgress` -/
  | noProgress
  /-- `bufio.ErrAdvanceTooFar` -/
  | advanceTooFar
  /-- any other error -/
  | other (msg : String)
deriving DecidableEq, Repr

/-- A `bufio.SplitFunc`. -/
abbrev SplitFunc := List UInt8 → Bool → Go SplitResult

/-- What one call `r.Read(p)` of an `io.Reader` does: it stores `bytes` at the beginning of `p` and returns `(n, err)`.
A correct reader has `n = len(bytes) ≤ len(p)`; an incorrect one may return any number. `next` is the state of the
reader afterwards. -/
structure ReadResult (σ : Type) where
  bytes : List UInt8
  n : Int
  err : Option IOErr
  next : σ

/-- An `io.Reader` with state `σ`: its `Read` method sees the length of the slice it is given. -/
abbrev Reader (σ : Type) := σ → Nat → ReadResult σ

/-- bufio.Scanner. `buf` has the length `len(s.buf)`; `stop` is the field `end`. The field `maxTokenSize` is a parameter
of the functions below. `old` is not a field: it holds the buffers the Scanner used before `buf`, oldest first, which
tokens may still refer to. -/
structure Scanner (σ : Type) where
  rd : σ
  token : Option (List UInt8)
  buf : List UInt8
  start : Nat
  stop : Nat
  err : Option IOErr
  empties : Nat
  done : Bool
  old : List (List UInt8)

/-- `bufio.NewScanner(r)`, then `s.Buffer(make([]byte, b0), max)` (with `b0 = 0` if `Buffer` is not called). -/
def newScanner {σ : Type} (rd : σ) (b0 : Nat) : Scanner σ :=
  { rd := rd, token := none, buf := List.replicate b0 0, start := 0, stop := 0, err := none, empties := 0, done := false,
    old := [] }

/-- `bufio.MaxScanTokenSize` -/
def maxScanTokenSize : Nat := 64 * 1024
/-- `startBufSize` -/
def startBufSize : Nat := 4096
/-- `maxConsecutiveEmptyReads` -/
def maxConsecutiveEmptyReads : Nat := 100

namespace Scanner
variable {σ : Type}

/-- `s.setErr(err)`: keeps the first error other than io.EOF. -/
def setErr (s : Scanner σ) (e : IOErr) : Scanner σ :=
  if s.err = none ∨ s.err = some .eof then { s with err := some e } else s

/-- `s.Err()` -/
def Err (s : Scanner σ) : Option IOErr := if s.err = some .eof then none else s.err

/-- `s.Bytes()` -/
def Bytes (s : Scanner σ) : Option (List UInt8) := s.token

/-- `s.buf[s.start:s.end]`, bounds-checked -/
def window (s : Scanner σ) : Go (List UInt8) :=
  if s.start ≤ s.stop ∧ s.stop ≤ s.buf.length then .ok ((s.buf.drop s.start).take (s.stop - s.start))
  else .error .sliceOutOfRange

/-- `copy(buf[off:], bytes)` for `bytes` that fit -/
def overwrite (buf : List UInt8) (off : Nat) (bytes : List UInt8) : List UInt8 :=
  buf.take off ++ bytes ++ buf.drop (off + bytes.length)

/-- The body of the innermost loop of `Scan`, one call of `Read`, up to `loop++`. The Boolean says whether the loop is
left (there is data or an error). -/
def readOnce (read : Reader σ) (s : Scanner σ) : Bool × Scanner σ :=
  let room := s.buf.length - s.stop
  let r := read s.rd room
  let s := { s with rd := r.next, buf := overwrite s.buf s.stop (r.bytes.take room) }
  if r.n < 0 ∨ (room : Int) < r.n then (true, s.setErr .badReadCount)
  else
    let s := { s with stop := s.stop + r.n.toNat }
    match r.err with
    | some e => (true, s.setErr e)
    | none => if 0 < r.n then (true, { s with empties := 0 }) else (false, s)

/-- The innermost loop of `Scan`: read until there is data or an error. `left` counts how many more empty reads are
tolerated (`loop` of the Go code is 100 - left). -/
def readLoop (read : Reader σ) : (left : Nat) → Scanner σ → Scanner σ
  | 0, s =>
    match readOnce read s with
    | (true, s) => s
    | (false, s) => s.setErr .noProgress
  | left + 1, s =>
    match readOnce read s with
    | (true, s) => s
    | (false, s) => readLoop read left s

/-- "First, shift data to beginning of buffer if there's lots of empty space or space is needed." -/
def shift (s : Scanner σ) (w : List UInt8) : Scanner σ :=
  if 0 < s.start ∧ (s.stop = s.buf.length ∨ s.buf.length / 2 < s.start) then
    { s with buf := overwrite s.buf 0 w, stop := s.stop - s.start, start := 0 }
  else s

/-- `newSize` -/
def newSize (maxTokenSize len : Nat) : Nat :=
  min (if len * 2 = 0 then startBufSize else len * 2) maxTokenSize

/-- "Is the buffer full? If so, resize." `none`: too long. -/
def grow (maxTokenSize : Nat) (s : Scanner σ) (w : List UInt8) : Option (Scanner σ) :=
  if s.stop = s.buf.length then
    if maxTokenSize ≤ s.buf.length then none
    else
      some { s with old := s.old ++ [s.buf],
                    buf := overwrite (List.replicate (newSize maxTokenSize s.buf.length) 0) 0 w,
                    stop := s.stop - s.start, start := 0 }
  else some s

/-- The part of the loop of `Scan` after a token could not be produced; `none` for the result: go round again. -/
def more (read : Reader σ) (maxTokenSize : Nat) (s : Scanner σ) : Go (Option Bool × Scanner σ) :=
  if s.err ≠ none then .ok (some false, { s with start := 0, stop := 0 })
  else do
    let w ← s.window
    match (s.shift w).grow maxTokenSize w with
    | none => .ok (some false, (s.shift w).setErr .tooLong)
    | some s => .ok (none, readLoop read maxConsecutiveEmptyReads s)

/-- One round of the loop of `Scan`. -/
def round (split : SplitFunc) (read : Reader σ) (maxTokenSize : Nat) (s : Scanner σ) : Go (Option Bool × Scanner σ) :=
  if s.start < s.stop ∨ s.err ≠ none then do
    let w ← s.window
    let r ← split w (s.err != none)
    match r.err with
    | some e =>
      if e = "final token" then .ok (some (r.token != none), { s with token := r.token, done := true })
      else .ok (some false, s.setErr (.other e))
    | none =>
      if s.stop - s.start < r.advance then .ok (some false, s.setErr .advanceTooFar)
      else
        let s := { s with start := s.start + r.advance, token := r.token }
        match r.token with
        | some _ =>
          if s.err = none ∨ 0 < r.advance then .ok (some true, { s with empties := 0 })
          else if maxConsecutiveEmptyReads < s.empties + 1 then
            .error (.explicit "bufio.Scan: too many empty tokens without progressing")
          else .ok (some true, { s with empties := s.empties + 1 })
        | none => more read maxTokenSize s
  else more read maxTokenSize s

/-- The loop of `Scan`, with a bound on the number of rounds (`outOfFuel` is proved impossible). -/
def loop (split : SplitFunc) (read : Reader σ) (maxTokenSize : Nat) : (fuel : Nat) → Scanner σ → Go (Bool × Scanner σ)
  | 0, _ => .error .outOfFuel
  | fuel + 1, s => do
    match ← round split read maxTokenSize s with
    | (some b, s) => .ok (b, s)
    | (none, s) => loop split read maxTokenSize fuel s

/-- `s.Scan()` -/
def Scan (split : SplitFunc) (read : Reader σ) (maxTokenSize : Nat) (s : Scanner σ) : Go (Bool × Scanner σ) :=
  if s.done then .ok (false, s)
  else loop split read maxTokenSize (max s.buf.length maxTokenSize + 2) s

/-- The loop `for s.Scan() { toks = append(toks, copy of s.Bytes()) }`, followed by `s.Err()`. `fuel` bounds the number
of calls of `Scan`. -/
def collect (split : SplitFunc) (read : Reader σ) (maxTokenSize : Nat) :
    (fuel : Nat) → Scanner σ → Go (List (List UInt8) × Option IOErr)
  | 0, _ => .error .outOfFuel
  | fuel + 1, s => do
    match ← s.Scan split read maxTokenSize with
    | (true, s) => do
      let (toks, e) ← collect split read maxTokenSize fuel s
      .ok ((s.Bytes.getD []) :: toks, e)
    | (false, s) => .ok ([], s.Err)

/-- Calls `Scan` until it returns false, but at most `n` times, and collects (copies of) the tokens. -/
def collectUpTo (split : SplitFunc) (read : Reader σ) (M : Nat) : Nat → Scanner σ → Go (List (List UInt8) × Scanner σ)
  | 0, s => .ok ([], s)
  | n + 1, s => do
    match ← s.Scan split read M with
    | (true, s) => do
      let (toks, s') ← collectUpTo split read M n s
      .ok ((s.Bytes.getD []) :: toks, s')
    | (false, s) => .ok ([], s)

/-- `n` calls of `Scan`, one after the other, whatever they return. -/
def scanTimes (split : SplitFunc) (read : Reader σ) (M : Nat) : Nat → Scanner σ → Go (Scanner σ)
  | 0, s => .ok s
  | n + 1, s => do
    let (_, s) ← s.Scan split read M
    scanTimes split read M n s

end Scanner

/-- bufio `dropCR` -/
def dropCR (data : List UInt8) : List UInt8 :=
  if data.getLast? = some 0x0D then data.dropLast else data

/-- `bytes.IndexByte(data, c)`; `none` for -1. -/
def indexByte (c : UInt8) : List UInt8 → Option Nat
  | [] => none
  | b :: rest => if b = c then some 0 else (indexByte c rest).map (· + 1)

/-- `bufio.ScanLines` -/
def ScanLines : SplitFunc := fun data atEOF =>
  if atEOF ∧ data.length = 0 then .ok needMore
  else match indexByte 0x0A data with
    | some i => .ok { advance := i + 1, token := some (dropCR (data.take i)), err := none }
    | none =>
      if atEOF then .ok { advance := data.length, token := some (dropCR data), err := none }
      else .ok needMore

end Textseg
