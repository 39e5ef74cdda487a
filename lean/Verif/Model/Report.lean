import Verif.Model.ConformanceTest
import Verif.Model.DecodeRune
import Verif.Model.GenPrint
/-!
# Model of what a failing conformance subtest prints (textseg/grapheme_clusters_test.go)
-/

namespace Textseg

/-- `strings.Join(strs, sep)` -/
def stringsJoin (sep : GoString) : List GoString → GoString
  | [] => []
  | [s] => s
  | s :: t :: rest => s ++ sep ++ stringsJoin sep (t :: rest)

/-- grapheme_clusters_test.go:244-250 `formatBytes` -/
def formatBytes (buf : List UInt8) : GoString := stringsJoin (str "   ") (buf.map sprintf0x02x)

/-- grapheme_clusters_test.go:252-258 `formatByteRanges` -/
def formatByteRanges (bufs : List (List UInt8)) : GoString := stringsJoin (str " | ") (bufs.map formatBytes)

/-- grapheme_clusters_test.go:49-56 and 112-119, the loop that takes the input apart: `runes`, `seqs` and `categories`. -/
def diagnoseLoop : (fuel : Nat) → (buf : List UInt8) → Go (List GoString × List (List UInt8) × List GoString)
  | 0, _ => .error .outOfFuel
  | fuel + 1, buf =>
    if buf.length = 0 then .ok ([], [], [])
    else do
      let (r, size) := DecodeRune buf
      let rune := str "0x" ++ Gen.sprintf04x r
      let seq ← goSliceTo buf size
      let (props, _) ← LookupFirstChar buf
      let category := charPropertiesString props
      let buf ← goSliceFrom buf size
      let (runes, seqs, categories) ← diagnoseLoop fuel buf
      .ok (rune :: runes, seq :: seqs, category :: categories)

/-- grapheme_clusters_test.go:45-56 and 108-119 -/
def diagnose (input : List UInt8) : Go (List GoString × List (List UInt8) × List GoString) := diagnoseLoop (input.length + 1) input

/-- grapheme_clusters_test.go:45-66 and 108-129, the message of `t.Errorf` -/
def failureReport (test : TestDataEntry) (got : List (List UInt8)) : Go GoString := do
  let (runes, seqs, categories) ← diagnose test.Input
  .ok (str "wrong result\ninput: " ++ formatBytes test.Input ++ str "\nutf8s: " ++ formatByteRanges seqs ++
    str "\nrunes: " ++ stringsJoin (str " ") runes ++ str "\ncats:  " ++ stringsJoin (str " ") categories ++
    str "\ngot:   " ++ formatByteRanges got ++ str "\nwant:  " ++ formatByteRanges test.WantSegments)

/-- grapheme_clusters_test.go:35-67, the body of a subtest of `TestScanGraphemeClusters`: `none` if it passes, else the message
(of `t.Fatalf`, without the text of the error, or of `t.Errorf`). -/
def reportWhole (test : TestDataEntry) : Go (Option GoString) := do
  let (got, err) ← allTokens test.Input ScanGraphemeClusters
  if err != none then .ok (some (str "unexpected error: "))
  else if got == test.WantSegments then .ok none
  else do
    let msg ← failureReport test got
    .ok (some msg)

/-- grapheme_clusters_test.go:91-130, the same for `TestScanGraphemeClusters_partial`. -/
def reportPartial (test : TestDataEntry) : Go (Option GoString) := do
  let (refs, s) ← collectRefs ScanGraphemeClusters dripReader maxScanTokenSize (test.Input.length + 1) (newScanner test.Input 0)
  let got ← refs.mapM (SliceRef.read s.heap)
  if s.Err != none then .ok (some (str "unexpected error: "))
  else if got == test.WantSegments then .ok none
  else do
    let msg ← failureReport test got
    .ok (some msg)

end Textseg
