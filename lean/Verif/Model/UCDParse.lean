import Verif.Model.GoBytes
import Verif.Model.BufioScanner
/-!
# Model of textseg/internal/charprops/ucdparse

Simplification: `Entry.Fields` is a value. In the Go code it is a slice of the buffer of the line Scanner and only valid until the
next call of `NextEntry`; all callers in /repo use it before. Model/UCDSlices.lean models it as a slice, and C64 shows that such
callers see the values given here. (The slices in a `TestDataEntry` are freshly allocated, testdata_scan.go:51-55.)
-/

namespace Textseg

/-- ucd_scan.go:100 -/
def commentMarker : List UInt8 := [0x23]
/-- ucd_scan.go:101 -/
def fieldSeparator : List UInt8 := [0x3B]
/-- ucd_scan.go:102 -/
def rangeSeparator : List UInt8 := [0x2E, 0x2E]
/-- testdata_scan.go:70, U+00F7 in UTF-8 -/
def splitMarker : List UInt8 := [0xC3, 0xB7]
/-- testdata_scan.go:71, U+00D7 in UTF-8 -/
def nonsplitMarker : List UInt8 := [0xC3, 0x97]

/-- ucd_scan.go:62-66 `Entry` (and 76 `Fields`) -/
structure Entry where
  Start : Rune
  End : Rune
  Fields : List UInt8
deriving DecidableEq, Repr

/-- The errors of `NextEntry`. -/
inductive ParseErr where
  /-- `io.EOF` or an error of the line Scanner -/
  | io (e : IOErr)
  /-- ucd_scan.go:42 -/
  | invalidStart (startHex : List UInt8)
  /-- ucd_scan.go:48 -/
  | invalidEnd (endHex : List UInt8)
  /-- testdata_scan.go:49 -/
  | invalidChar (charHexStr : List UInt8)
deriving DecidableEq, Repr

/-- ucd_scan.go:30-58, what is done with one line; `none` for `continue`. -/
def parseLine (raw : List UInt8) : Option (Except ParseErr Entry) :=
  let (raw, _, _) := bytesCut raw commentMarker
  match bytesCut raw fieldSeparator with
  | (_, _, false) => none
  | (rng, fieldsRaw, true) =>
    let rng := TrimSpace rng
    let fieldsRaw := TrimSpace fieldsRaw
    let (startHex, endHex, isRange) := bytesCut rng rangeSeparator
    match ParseUint startHex with
    | none => some (.error (.invalidStart startHex))
    | some startInt =>
      let start := toRune startInt
      if isRange then
        match ParseUint endHex with
        | none => some (.error (.invalidEnd endHex))
        | some endInt => some (.ok { Start := start, End := toRune endInt + 1, Fields := fieldsRaw })
      else some (.ok { Start := start, End := start + 1, Fields := fieldsRaw })

/-- ucd_scan.go:25-28 and testdata_scan.go:25-28, what is returned when there are no more lines. -/
def endOfLines {σ : Type} (s : Scanner σ) : ParseErr :=
  match s.Err with
  | some e => .io e
  | none => .io .eof

/-- ucd_scan.go:22-60 `Scanner.NextEntry`. `s` is `sc.lineScan`, over a reader `read`; `fuel` bounds the number of lines
read. -/
def NextEntry {σ : Type} (read : Reader σ) : (fuel : Nat) → Scanner σ → Go (Except ParseErr Entry × Scanner σ)
  | 0, _ => .error .outOfFuel
  | fuel + 1, s => do
    match ← s.Scan ScanLines read maxScanTokenSize with
    | (false, s) => .ok (.error (endOfLines s), s)
    | (true, s) =>
      match parseLine (s.Bytes.getD []) with
      | none => NextEntry read fuel s
      | some r => .ok (r, s)

/-- The loop `for { entry, err := sc.NextEntry(); if err != nil { break }; … }` as at gentable/generate.go:45-51, 58-64 and
75-80: the entries up to the first error, and that error. -/
def allEntries {σ : Type} (read : Reader σ) : (fuel : Nat) → Scanner σ → Go (List Entry × ParseErr)
  | 0, _ => .error .outOfFuel
  | fuel + 1, s => do
    match ← NextEntry read (fuel + 1) s with
    | (.error e, _) => .ok ([], e)
    | (.ok entry, s) => do
      let (entries, e) ← allEntries read fuel s
      .ok (entry :: entries, e)

/-- ucd_scan.go:78-93 `Fields.Strings`: the function it returns, called with `yield`. `τ` is what `yield` may change;
`remain` is the captured variable, which keeps its value for the next call. `fuel` bounds the number of fields. -/
def fieldsIter {τ : Type} (yield : τ → GoString → Bool × τ) : (fuel : Nat) → (remain : List UInt8) → τ → Go (List UInt8 × τ)
  | 0, _, _ => .error .outOfFuel
  | fuel + 1, remain, t =>
    match bytesCut remain fieldSeparator with
    | (before, after, foundSep) =>
      match yield t (TrimSpace before) with
      | (false, t) => .ok (remain, t)
      | (true, t) => if foundSep then fieldsIter yield fuel after t else .ok (remain, t)

/-- `slices.Collect(f.Strings())`, as at gentable/generate.go:81 (`Entry.AllFields`, ucd_scan.go:72-74). -/
def allFields (f : List UInt8) : Go (List GoString) :=
  (fieldsIter (fun acc v => (true, acc ++ [v])) (f.length + 1) f []).map (·.2)

/-- ucd_scan.go:95-98 `Fields.FirstString` (`Entry.FirstField`, ucd_scan.go:68-70) -/
def firstString (f : List UInt8) : GoString :=
  let (before, _, _) := bytesCut f fieldSeparator
  TrimSpace before

/-- testdata_scan.go:65-68 -/
structure TestDataEntry where
  Input : List UInt8
  WantSegments : List (List UInt8)
deriving DecidableEq, Repr

/-- testdata_scan.go:42-56, the inner loop: the characters of a segment, appended to `entry.Input` and `currentSeg`. -/
def parseChars : List (List UInt8) → (input currentSeg : List UInt8) → Except ParseErr (List UInt8 × List UInt8)
  | [], input, currentSeg => .ok (input, currentSeg)
  | charHex :: rest, input, currentSeg =>
    let charHexStr := TrimSpace charHex
    if charHexStr.length = 0 then parseChars rest input currentSeg
    else match ParseInt charHexStr with
      | none => .error (.invalidChar charHexStr)
      | some charInt =>
        let buf := EncodeRune (toRune charInt)
        parseChars rest (input ++ buf) (currentSeg ++ buf)

/-- testdata_scan.go:39-60, the outer loop. -/
def parseSegs : List (List UInt8) → TestDataEntry → Go (Except ParseErr TestDataEntry)
  | [], entry => .ok (.ok entry)
  | wantSeg :: rest, entry => do
    let charsHex ← bytesSplit wantSeg nonsplitMarker
    match parseChars charsHex entry.Input [] with
    | .error e => .ok (.error e)
    | .ok (input, currentSeg) =>
      parseSegs rest { Input := input,
                       WantSegments := if currentSeg.length ≠ 0 then entry.WantSegments ++ [currentSeg]
                                       else entry.WantSegments }

/-- testdata_scan.go:30-61, what is done with one line; `none` for `continue`. -/
def parseTestLine (raw : List UInt8) : Go (Option (Except ParseErr TestDataEntry)) :=
  let (raw, _, _) := bytesCut raw commentMarker
  let raw := TrimSpace raw
  if raw.length = 0 then .ok none
  else do
    let wantSegs ← bytesSplit raw splitMarker
    let r ← parseSegs wantSegs { Input := [], WantSegments := [] }
    .ok (some r)

/-- testdata_scan.go:22-63 `TestDataScanner.NextEntry` -/
def NextTestEntry {σ : Type} (read : Reader σ) : (fuel : Nat) → Scanner σ → Go (Except ParseErr TestDataEntry × Scanner σ)
  | 0, _ => .error .outOfFuel
  | fuel + 1, s => do
    match ← s.Scan ScanLines read maxScanTokenSize with
    | (false, s) => .ok (.error (endOfLines s), s)
    | (true, s) => do
      match ← parseTestLine (s.Bytes.getD []) with
      | none => NextTestEntry read fuel s
      | some r => .ok (r, s)

/-- The loop `for { entry, err := sc.NextEntry(); if err != nil { break }; … }` as at grapheme_clusters_test.go: the entries up to
the first error, and that error. -/
def allTestEntries {σ : Type} (read : Reader σ) : (fuel : Nat) → Scanner σ → Go (List TestDataEntry × ParseErr)
  | 0, _ => .error .outOfFuel
  | fuel + 1, s => do
    match ← NextTestEntry read (fuel + 1) s with
    | (.error e, _) => .ok ([], e)
    | (.ok entry, s) => do
      let (entries, e) ← allTestEntries read fuel s
      .ok (entry :: entries, e)

end Textseg
