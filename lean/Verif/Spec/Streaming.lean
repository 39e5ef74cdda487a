import Verif.Model.BufioScanner
/-!
# Specification: what a reader delivers, and what a stream of tokens is

These definitions mention only the reader and the split function, not the Scanner.
-/

namespace Textseg.Spec
open Textseg

/-- One call of `Read` with room for `room` bytes, after `k` empty reads in a row, fits a reader that still has the bytes
`D` to deliver and ends with `E`. It keeps `D'` for later. The possibilities are: the reader breaks its contract by
returning an impossible count; the reader returns its last bytes together with an error; the reader returns nothing
although it has already returned nothing 100 times; or the reader returns some (possibly no) bytes without an error. -/
inductive ReadStep {σ : Type} (E : IOErr) (r : ReadResult σ) (room k : Nat) : (D D' : List UInt8) → Prop
  | badCount : (r.n < 0 ∨ (room : Int) < r.n) → E = .badReadCount → ReadStep E r room k [] []
  | last : r.n = r.bytes.length → r.bytes.length ≤ room → r.err = some E → ReadStep E r room k r.bytes []
  | stuck : r.n = 0 → r.bytes = [] → r.err = none → k = 100 → E = .noProgress → ReadStep E r room k [] []
  | bytes (D' : List UInt8) : r.n = r.bytes.length → r.bytes.length ≤ room → r.err = none → (r.bytes = [] → k < 100) →
      ReadStep E r room k (r.bytes ++ D') D'

/-- The reader does not end with this read. -/
def Continues {σ : Type} (r : ReadResult σ) (room k : Nat) : Prop :=
  0 ≤ r.n ∧ r.n ≤ room ∧ r.err = none ∧ (r.bytes = [] → k < 100)

/-- The reader in state `s`, which has just returned `k` empty reads in a row, delivers exactly the bytes `D`, in pieces
of its own choosing which may depend on the room it is offered each time, and then ends with the error `E` (`io.EOF` for a
reader that comes to its end without failing). At no time does it return more than 100 empty reads in a row, except that a
reader that does so counts as one that fails with `io.ErrNoProgress` at that point. -/
inductive Delivers {σ : Type} (read : Reader σ) (E : IOErr) : (s : σ) → (D : List UInt8) → (k : Nat) → Prop
  | mk (s : σ) (D : List UInt8) (k : Nat) (rest : Nat → List UInt8) :
      (∀ room, 0 < room → ReadStep E (read s room) room k D (rest room)) →
      (∀ room, 0 < room → Continues (read s room) room k →
        Delivers read E (read s room).next (rest room) (if (read s room).bytes = [] then k + 1 else 0)) →
      Delivers read E s D k

/-- The reader never returns bytes and an error in the same call. -/
def ErrorsSeparately {σ : Type} (read : Reader σ) : Prop :=
  ∀ s room, (read s room).err ≠ none → (read s room).bytes = []

/-- The reader returns its last bytes and its error in the same call: after a read without an error there are always more
bytes to come. -/
def ErrorsTogether {σ : Type} (read : Reader σ) (E : IOErr) : Prop :=
  ∀ s room, 0 < room → (read s room).err = none → ∀ k, ¬ Delivers read E (read s room).next [] k

/-- The tokens of a complete input are obtained by calling the split function at end of input again and again; `SplitsTo`
is the list of them with the remaining input before each. -/
inductive SplitsTo (split : SplitFunc) : List UInt8 → List (List UInt8) → Prop
  | nil : SplitsTo split [] []
  | cons (data : List UInt8) (r : SplitResult) (tok : List UInt8) (toks : List (List UInt8)) :
      data ≠ [] → split data true = .ok r → r.token = some tok → r.err = none →
      SplitsTo split (data.drop r.advance) toks → SplitsTo split data (tok :: toks)

/-- The split function cannot decide the first token of `data` from its first `C` bytes. -/
def Overlong (split : SplitFunc) (C : Nat) (data : List UInt8) : Prop :=
  C ≤ data.length ∧ ∃ r, split (data.take C) false = .ok r ∧ r.token = none

/-- What a Scanner with room for `C` bytes makes of the bytes `D` followed by the error `E`: the tokens of `D` up to the
first place where the token is overlong, and the error that ends the stream. There is some freedom if the data from that
place on is exactly `C` bytes long: the token may be accepted if `lenient`, and it may be rejected if `strict`. -/
inductive Streams (split : SplitFunc) (C : Nat) (lenient strict : Prop) (E : IOErr) :
    List UInt8 → List (List UInt8) → IOErr → Prop
  | done : Streams split C lenient strict E [] [] E
  | tooLong (data : List UInt8) : Overlong split C data → (strict ∨ C < data.length) →
      Streams split C lenient strict E data [] .tooLong
  | token (data : List UInt8) (r : SplitResult) (tok : List UInt8) (toks : List (List UInt8)) (F : IOErr) :
      data ≠ [] → (Overlong split C data → lenient ∧ data.length = C) →
      split data true = .ok r → r.token = some tok → r.err = none →
      Streams split C lenient strict E (data.drop r.advance) toks F → Streams split C lenient strict E data (tok :: toks) F

/-- What the Scanner relies on: the split function never fails, consumes no more than there is, produces a token exactly if
it consumes something, keeps its decisions when more data arrives, and produces a token at the end of a non-empty input. -/
structure GoodSplit (split : SplitFunc) : Prop where
  total : ∀ data atEOF, ∃ r, split data atEOF = .ok r ∧ r.err = none ∧ r.advance ≤ data.length ∧
    (r.token = none ↔ r.advance = 0)
  final : ∀ data r, split data false = .ok r → r.token ≠ none → ∀ more atEOF, split (data ++ more) atEOF = .ok r
  eof : ∀ data, data ≠ [] → ∃ r, split data true = .ok r ∧ r.token ≠ none

/-- The reader always returns the number of bytes it has stored, and never more than there is room for. (It need not ever
end.) -/
def Honest {σ : Type} (read : Reader σ) : Prop :=
  ∀ s room, (read s room).n = (read s room).bytes.length ∧ (read s room).bytes.length ≤ room

/-- The same reader, keeping a record of all the bytes it has delivered. -/
def logged {σ : Type} (read : Reader σ) : Reader (σ × List UInt8) := fun s room =>
  let r := read s.1 room
  { bytes := r.bytes, n := r.n, err := r.err, next := (r.next, s.2 ++ r.bytes) }

end Textseg.Spec
