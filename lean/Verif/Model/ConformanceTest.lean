import Verif.Model.AllTokens
import Verif.Model.UCDParse
/-!
# Model of the conformance tests in textseg/grapheme_clusters_test.go

Simplification: what a failing subtest prints (lines 42-66 and 105-129) is left out here (see Report.lean); the outcome of a
subtest is whether it passes. `reflect.DeepEqual` distinguishes nil from empty slices, which plays no role here: neither the tokens nor the wanted
segments of an entry are ever empty, and if there are none both lists are nil.
-/

namespace Textseg

/-- grapheme_clusters_test.go:35-67, the body of a subtest of `TestScanGraphemeClusters`. -/
def subtestWhole (test : TestDataEntry) : Go Bool := do
  let (got, err) ← allTokens test.Input ScanGraphemeClusters
  .ok (err == none && got == test.WantSegments)

/-- grapheme_clusters_test.go:91-130, the body of a subtest of `TestScanGraphemeClusters_partial`: the input arrives byte by
byte, and the slices are kept. -/
def subtestPartial (test : TestDataEntry) : Go Bool := do
  let (refs, s) ← collectRefs ScanGraphemeClusters dripReader maxScanTokenSize (test.Input.length + 1) (newScanner test.Input 0)
  let got ← refs.mapM (SliceRef.read s.heap)
  .ok (s.Err == none && got == test.WantSegments)

/-- grapheme_clusters_test.go:26-69 and 82-132, the loop of both tests over the entries of the file: the outcomes of the
subtests, and whether the end of the file was reached (`break`) rather than `t.Fatal` called. -/
def runTests {σ : Type} (subtest : TestDataEntry → Go Bool) (read : Reader σ) :
    (fuel : Nat) → Scanner σ → Go (List Bool × Bool)
  | 0, _ => .error .outOfFuel
  | fuel + 1, s => do
    match ← NextTestEntry read (fuel + 1) s with
    | (.error e, _) => .ok ([], e == .io .eof)
    | (.ok test, s) => do
      let outcome ← subtest test
      let (outcomes, complete) ← runTests subtest read fuel s
      .ok (outcome :: outcomes, complete)

/-- The test as a whole passes. -/
def passes (r : List Bool × Bool) : Bool := r.2 && r.1.all id

end Textseg
