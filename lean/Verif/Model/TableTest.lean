import Verif.Model.Lookup
import Verif.Model.GenTable
/-!
# Model of the tests in textseg/internal/charprops/property_table_test.go

Simplification: what a failing subtest prints is left out; the outcome of a subtest is whether it passes. The function under
test is a parameter `lookup`, so that one can ask what the tests would say about another table; in the repository it is
`LookupFirstChar`. If the file cannot be opened the tests fail at once; this is not modelled.
-/

namespace Textseg
open Textseg.Gen

/-- The three tests that read a data file: property_table_test.go:74 `TestLookupFirstChar_graphemeBreakProperty`, 112
`TestLookupFirstChar_emojiExtendedPictographic` and 153 `TestLookupFirstChar_indicConjunctBreakProperty`. -/
inductive TableTest where
  | graphemeBreakProperty
  | emojiExtendedPictographic
  | indicConjunctBreakProperty
deriving DecidableEq, Repr

/-- property_table_test.go:95-107, 136-148 and 178-190, one iteration of the inner loop with its subtest: `part` is
`GCBProperty()` or `InCBProperty()`. (`buf` is a slice of `n` bytes.) -/
def lookupSubtest (lookup : List UInt8 → Go (CharProperties × Nat)) (part : CharProperties → UInt8) (want : UInt8) (r : Rune) :
    Go Bool := do
  let buf := EncodeRune r
  let n := buf.length
  let (gotProperties, gotLength) ← lookup buf
  .ok (part gotProperties == want && gotLength == n)

/-- property_table_test.go:94-108, 135-149 and 177-191, the loop `for r := entry.Start; r < entry.End; r++`, with `n` iterations
(see `rangeCount`): the outcomes of the subtests. -/
def rangeSubtests (subtest : Rune → Go Bool) : (n : Nat) → (r : Rune) → Go (List Bool)
  | 0, _ => .ok []
  | n + 1, r => do
    let outcome ← subtest r
    let outcomes ← rangeSubtests subtest n (r + 1)
    .ok (outcome :: outcomes)

/-- property_table_test.go:93-108, 131-149 and 171-191, what is done with one entry. -/
def entrySubtests (lookup : List UInt8 → Go (CharProperties × Nat)) (test : TableTest) (entry : Entry) : Go (List Bool) :=
  match test with
  | .graphemeBreakProperty =>
    let wantGBP := LookupGCBProperty (firstString entry.Fields)
    rangeSubtests (lookupSubtest lookup gcbProperty wantGBP) (rangeCount entry) entry.Start
  | .emojiExtendedPictographic =>
    let wantGBP := LookupEmojiProperty (firstString entry.Fields)
    if wantGBP ≠ GCBExtendedPictographic then .ok []
    else rangeSubtests (lookupSubtest lookup gcbProperty wantGBP) (rangeCount entry) entry.Start
  | .indicConjunctBreakProperty => do
    let fields ← allFields entry.Fields
    match fields with
    | f0 :: f1 :: _ =>
      if f0 ≠ str "InCB" then .ok []
      else rangeSubtests (lookupSubtest lookup inCBProperty (LookupInCBProperty f1)) (rangeCount entry) entry.Start
    | _ => .ok []

/-- property_table_test.go:85-109, 123-150 and 164-192, the loop of a test over the entries of its file: the outcomes of the
subtests, and whether the end of the file was reached (`break`) rather than `t.Fatal` called. -/
def runTableTest {σ : Type} (lookup : List UInt8 → Go (CharProperties × Nat)) (test : TableTest) (read : Reader σ) :
    (fuel : Nat) → Scanner σ → Go (List Bool × Bool)
  | 0, _ => .error .outOfFuel
  | fuel + 1, s => do
    match ← NextEntry read (fuel + 1) s with
    | (.error e, _) => .ok ([], e == .io .eof)
    | (.ok entry, s) => do
      let outs ← entrySubtests lookup test entry
      let (outcomes, complete) ← runTableTest lookup test read fuel s
      .ok (outs ++ outcomes, complete)

/-- property_table_test.go:13-59, the table of `TestLookupFirstChar`: input, wanted properties, wanted length. -/
def lookupCases : List (List UInt8 × CharProperties × Nat) :=
  [([], 0, 0),
   (str "\n", GCBLF, 1),
   (str "\u2665\uFE0F", GCBExtendedPictographic, 3),
   (str "\uFE0F", GCBExtend ||| InCBExtend, 3),
   ([0xF0, 0x9F, 0x87, 0xA6, 0xF0, 0x9F, 0x87, 0xA6], GCBRegionalIndicator, 4),
   ([0xC0], 0, 0),
   ([0xC0, 0x00], ErrorProps, 1),
   ([0x80, 0x00], ErrorProps, 1)]

/-- property_table_test.go:61-71, a subtest of `TestLookupFirstChar`. -/
def lookupCase (lookup : List UInt8 → Go (CharProperties × Nat)) (c : List UInt8 × CharProperties × Nat) : Go Bool := do
  let (gotProperties, gotLength) ← lookup c.1
  .ok (gotProperties == c.2.1 && gotLength == c.2.2)

end Textseg
