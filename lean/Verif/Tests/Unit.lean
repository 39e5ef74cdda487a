import Verif.Model.AllTokens
import Verif.Model.AutoVersion
import Verif.Model.DecodeRune
import Verif.Model.UCDParse
/-!
# The unit tests of the repository with literal inputs, run on the model

These are checks of the model against the expectations that the authors of the code wrote down; they are not proofs of
properties. (The tests that read data files are modelled as programs, see C52 and C54.)
-/

namespace Textseg.Tests
open Textseg

/-- U+11F02 in UTF-8 -/
abbrev prepend : List UInt8 := [0xF0, 0x91, 0xBC, 0x82]

/-- grapheme_clusters_test.go:135-187 `TestScanGraphemeClusters_incompleteCluster` -/
example : ScanGraphemeClusters [0x61] false = .ok ⟨0, none, none⟩ ∧
    ScanGraphemeClusters [0x61] true = .ok ⟨1, some [0x61], none⟩ ∧
    ScanGraphemeClusters (prepend ++ prepend) false = .ok ⟨0, none, none⟩ ∧
    ScanGraphemeClusters (prepend ++ prepend) true = .ok ⟨8, some (prepend ++ prepend), none⟩ := by decide +kernel

/-- grapheme_clusters_test.go:189-242 `TestScanGraphemeClusters_incompleteUTF8` -/
example : ScanGraphemeClusters [0xC0] false = .ok ⟨0, none, none⟩ ∧
    ScanGraphemeClusters [0xC0] true = .ok ⟨1, some [0xC0], none⟩ ∧
    ScanGraphemeClusters (prepend ++ [0xF0]) false = .ok ⟨0, none, none⟩ ∧
    ScanGraphemeClusters (prepend ++ [0xF0]) true = .ok ⟨4, some prepend, none⟩ := by decide +kernel

/-! `bufio.ScanWords` (standard library), for `TestAllTokens` -/

/-- `isSpace` of bufio -/
def isSpaceRune (r : Nat) : Bool :=
  if r ≤ 0xFF then r == 0x20 || (0x09 ≤ r && r ≤ 0x0D) || r == 0x85 || r == 0xA0
  else (0x2000 ≤ r && r ≤ 0x200A) || r == 0x1680 || r == 0x2028 || r == 0x2029 || r == 0x202F || r == 0x205F || r == 0x3000

/-- The first loop of `bufio.ScanWords`: the position of the first rune that is not white space. -/
def skipSpaces (data : List UInt8) : (fuel start : Nat) → Nat
  | 0, start => start
  | fuel + 1, start =>
    if start < data.length then
      let (r, width) := DecodeRune (data.drop start)
      if isSpaceRune r then skipSpaces data fuel (start + width) else start
    else start

/-- The second loop of `bufio.ScanWords`: the position and width of the next white space. -/
def findSpace (data : List UInt8) : (fuel i : Nat) → Option (Nat × Nat)
  | 0, _ => none
  | fuel + 1, i =>
    if i < data.length then
      let (r, width) := DecodeRune (data.drop i)
      if isSpaceRune r then some (i, width) else findSpace data fuel (i + width)
    else none

/-- `bufio.ScanWords` -/
def ScanWords : SplitFunc := fun data atEOF =>
  let start := skipSpaces data data.length 0
  match findSpace data data.length start with
  | some (i, width) => .ok ⟨i + width, some ((data.take i).drop start), none⟩
  | none =>
    if atEOF && decide (start < data.length) then .ok ⟨data.length, some (data.drop start), none⟩
    else .ok ⟨start, none, none⟩

/-- all_tokens_test.go:25-85 `TestAllTokens` (the tokens as copies) -/
example : [("", []), ("hello", ["hello"]), ("hello world", ["hello", "world"]),
      ("hello worldly world", ["hello", "worldly", "world"])].all (fun (input, want) =>
    match (newScanner (str input) 0).collect ScanWords bytesReader maxScanTokenSize 100 with
    | .ok (toks, none) => toks == want.map str
    | _ => false) = true := by decide +kernel

/-- ucdparse/testdata/ExampleProperties.txt -/
def exampleProperties : List UInt8 :=
  str "\n# Blah blah\n0000..007F; Basic Latin # Blah blah\n0080..00FF; Latin-1 Supplement\n\n2764; Heart\n\n1D100..1D1FF; Music ; Astral\n"

/-- ucd_scan_test.go:12-80 `TestScanner` -/
example : (match allEntries bytesReader 500 (newScanner exampleProperties 0) with
    | .ok (es, e) => e == .io .eof && (es.map fun x => (x.Start, x.End, firstString x.Fields,
        match allFields x.Fields with | .ok fs => fs | .error _ => [])) ==
      [(0x0000, 0x0080, str "Basic Latin", [str "Basic Latin"]),
       (0x0080, 0x0100, str "Latin-1 Supplement", [str "Latin-1 Supplement"]),
       (0x2764, 0x2765, str "Heart", [str "Heart"]),
       (0x1D100, 0x1D200, str "Music", [str "Music", str "Astral"])]
    | .error _ => false) = true := by decide +kernel

/-- autoversion/textseg/version_specific_test.go:10-25 `TestScanGraphemeClusters`, for the Go release 1.27 (Unicode 17);
`TokenCount` counts the calls of `Scan` that return true. -/
example (v15 : List UInt8 → Bool → Go SplitResult) : ∃ f, autoScan v15 27 = some f ∧
    ∃ toks, (newScanner (str "whelp 🤦🏽‍♂️") 0).collect f bytesReader maxScanTokenSize 100 = .ok (toks, none) ∧ toks.length = 7 :=
  ⟨ScanGraphemeClusters, rfl, [str "w", str "h", str "e", str "l", str "p", str " ", str "🤦🏽‍♂️"], by decide +kernel, rfl⟩

end Textseg.Tests
