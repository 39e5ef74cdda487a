import Verif.Model.Lookup
import Verif.Model.Machine
/-!
# Model of textseg/grapheme_clusters.go
-/

namespace Textseg

/-- The result `(int, []byte, error)` of a `bufio.SplitFunc`; a nil token/error is `none`. -/
structure SplitResult where
  advance : Nat
  token : Option (List UInt8)
  err : Option String
deriving DecidableEq, Repr

/-- grapheme_clusters.go:19, 32, 48, 65: `return 0, nil, nil` -/
def needMore : SplitResult := { advance := 0, token := none, err := none }

/-- grapheme_clusters.go:24, 30, 43, 55, 63, 73: `return n, data[:n], nil` -/
def emit (data : List UInt8) (n : Nat) : Go SplitResult := do
  let tok ← goSliceTo data n
  .ok { advance := n, token := some tok, err := none }

/-- grapheme_clusters.go:38-78, the `for` loop. The loop variables are `count`, `remain`, `state` and `prev`; the first
argument bounds the number of iterations (running out of it is `outOfFuel`, proved impossible). -/
def scanLoop (data : List UInt8) (atEOF : Bool) :
    (fuel : Nat) → (count : Nat) → (remain : List UInt8) → (state : State) → (prev : CharProperties) → Go SplitResult
  | 0, _, _, _, _ => .error .outOfFuel
  | fuel + 1, count, remain, state, prev =>
    if remain.length == 0 then
      if atEOF then emit data count
      else .ok needMore
    else do
      let (next, moreCount) ← LookupFirstChar remain
      if next == ErrorProps then emit data count
      else if moreCount == 0 then
        if remain.length != 0 && atEOF then emit data count
        else .ok needMore
      else do
        let remain ← goSliceFrom remain moreCount
        let (split, nextState) ← Transition state prev next
        if split then emit data count
        else scanLoop data atEOF fuel (count + moreCount) remain nextState next

/-- grapheme_clusters.go:17-79 `ScanGraphemeClusters` -/
def ScanGraphemeClusters (data : List UInt8) (atEOF : Bool) : Go SplitResult :=
  if data.length == 0 then .ok needMore
  else do
    let (properties, count) ← LookupFirstChar data
    if properties == ErrorProps then emit data 1
    else if count == 0 then
      if data.length > count && atEOF then emit data 1
      else .ok needMore
    else do
      let remain ← goSliceFrom data count
      let state ← Begin properties
      scanLoop data atEOF (data.length + 1) count remain state properties

/-- A caller that holds the whole input and calls the split function with `atEOF = true` until the input is used up,
collecting the tokens. (This is the use documented at README.md:58-62 for an input that is entirely available;
`Model/BufioScanner.lean` models the actual `bufio.Scanner`.) An error or a missing token stops it. -/
def allTokensLoop : (fuel : Nat) → (data : List UInt8) → Go (List (List UInt8))
  | 0, _ => .error .outOfFuel
  | fuel + 1, data =>
    if data.length == 0 then .ok []
    else do
      let r ← ScanGraphemeClusters data true
      match r.token, r.err with
      | some tok, none => do
        let rest ← goSliceFrom data r.advance
        let toks ← allTokensLoop fuel rest
        .ok (tok :: toks)
      | _, _ => .ok []

/-- All the tokens of an input that is entirely available. -/
def tokens (data : List UInt8) : Go (List (List UInt8)) := allTokensLoop (data.length + 1) data

end Textseg
