import Verif.Model.BufioScanner
/-!
# Model of some readers
-/

namespace Textseg

/-- grapheme_clusters_test.go:260-276 `dripReader` and its `Read`: at most one byte per call. The state is `r.remain`. -/
def dripReader : Reader (List UInt8) := fun remain room =>
  match remain with
  | [] => { bytes := [], n := 0, err := some .eof, next := [] }
  | b :: rest =>
    if room = 0 then { bytes := [], n := 0, err := none, next := b :: rest }
    else { bytes := [b], n := 1, err := none, next := rest }

/-- `bytes.Reader.Read` (standard library), used at all_tokens_test.go:16: as many bytes as fit, then io.EOF in a call of
its own. The state is the unread part of the slice. -/
def bytesReader : Reader (List UInt8) := fun remain room =>
  match remain with
  | [] => { bytes := [], n := 0, err := some .eof, next := [] }
  | _ :: _ => { bytes := remain.take room, n := (remain.take room).length, err := none, next := remain.drop room }

/-- Not part of /repo: a reader that hands out given pieces (split up further if there is not enough room, empty pieces
being empty reads) and fails with `E` in a call of its own. -/
def pieceReader (E : IOErr) : Reader (List (List UInt8)) := fun pieces room =>
  match pieces with
  | [] => { bytes := [], n := 0, err := some E, next := [] }
  | p :: rest =>
    if p.length ≤ room then { bytes := p, n := p.length, err := none, next := rest }
    else { bytes := p.take room, n := (p.take room).length, err := none, next := p.drop room :: rest }

/-- Not part of /repo: a reader that gives as many bytes as fit and returns `E` together with the last ones. -/
def eagerReader (E : IOErr) : Reader (List UInt8) := fun remain room =>
  if remain.length ≤ room then { bytes := remain, n := remain.length, err := some E, next := [] }
  else { bytes := remain.take room, n := (remain.take room).length, err := none, next := remain.drop room }

end Textseg
