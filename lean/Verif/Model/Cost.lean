import Verif.Model.Scan
/-!
# The scan, instrumented: number of calls of LookupFirstChar

The same code as in `Model/Scan.lean`, with a second result that counts the property lookups. `Props/Cost.lean` proves that
forgetting the counter gives back the functions of `Model/Scan.lean`.
-/

namespace Textseg

/-- grapheme_clusters.go:38-78 with a counter -/
def scanLoopC (data : List UInt8) (atEOF : Bool) :
    (fuel : Nat) → (count : Nat) → (remain : List UInt8) → (state : State) → (prev : CharProperties) →
    Go (SplitResult × Nat)
  | 0, _, _, _, _ => .error .outOfFuel
  | fuel + 1, count, remain, state, prev =>
    if remain.length == 0 then
      if atEOF then do let r ← emit data count; .ok (r, 0)
      else .ok (needMore, 0)
    else do
      let (next, moreCount) ← LookupFirstChar remain
      if next == ErrorProps then do let r ← emit data count; .ok (r, 1)
      else if moreCount == 0 then
        if remain.length != 0 && atEOF then do let r ← emit data count; .ok (r, 1)
        else .ok (needMore, 1)
      else do
        let remain ← goSliceFrom remain moreCount
        let (split, nextState) ← Transition state prev next
        if split then do let r ← emit data count; .ok (r, 1)
        else do
          let (r, k) ← scanLoopC data atEOF fuel (count + moreCount) remain nextState next
          .ok (r, k + 1)

/-- grapheme_clusters.go:17-79 with a counter -/
def ScanGraphemeClustersC (data : List UInt8) (atEOF : Bool) : Go (SplitResult × Nat) :=
  if data.length == 0 then .ok (needMore, 0)
  else do
    let (properties, count) ← LookupFirstChar data
    if properties == ErrorProps then do let r ← emit data 1; .ok (r, 1)
    else if count == 0 then
      if data.length > count && atEOF then do let r ← emit data 1; .ok (r, 1)
      else .ok (needMore, 1)
    else do
      let remain ← goSliceFrom data count
      let state ← Begin properties
      let (r, k) ← scanLoopC data atEOF (data.length + 1) count remain state properties
      .ok (r, k + 1)

/-- The loop over the whole input (`allTokensLoop`), with a counter. -/
def allTokensLoopC : (fuel : Nat) → (data : List UInt8) → Go (List (List UInt8) × Nat)
  | 0, _ => .error .outOfFuel
  | fuel + 1, data =>
    if data.length == 0 then .ok ([], 0)
    else do
      let (r, k) ← ScanGraphemeClustersC data true
      match r.token, r.err with
      | some tok, none => do
        let rest ← goSliceFrom data r.advance
        let (toks, n) ← allTokensLoopC fuel rest
        .ok (tok :: toks, k + n)
      | _, _ => .ok ([], k)

/-- All the tokens of an input, and the number of lookups made. -/
def tokensC (data : List UInt8) : Go (List (List UInt8) × Nat) := allTokensLoopC (data.length + 1) data

end Textseg
