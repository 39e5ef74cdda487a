import Verif.Model.Go
/-!
# Model of the functions of the Go standard library that the data file parsers call

`bytes.Cut`, `bytes.Split`, `bytes.TrimSpace`, `strconv.ParseUint` and `strconv.ParseInt` (base 16, 32 bits) and
`utf8.EncodeRune`. They are not part of /repo; they are transcribed from knowledge of the standard library and belong to
the trusted base (DESIGN.md).
-/

namespace Textseg

/-- A Go `rune`. -/
abbrev Rune := Int32

/-- `bytes.Index(s, sep)`; `none` for -1. -/
def bytesIndex (sep : List UInt8) : List UInt8 → Option Nat
  | [] => if sep = [] then some 0 else none
  | b :: rest => if sep.isPrefixOf (b :: rest) then some 0 else (bytesIndex sep rest).map (· + 1)

/-- `bytes.Cut(s, sep)` -/
def bytesCut (s sep : List UInt8) : List UInt8 × List UInt8 × Bool :=
  match bytesIndex sep s with
  | some i => (s.take i, s.drop (i + sep.length), true)
  | none => (s, [], false)

/-- `bytes.Split(s, sep)` for a non-empty `sep`. `fuel` bounds the number of pieces. -/
def bytesSplitLoop (sep : List UInt8) : (fuel : Nat) → List UInt8 → Go (List (List UInt8))
  | 0, _ => .error .outOfFuel
  | fuel + 1, s =>
    match bytesCut s sep with
    | (before, after, true) => do
      let rest ← bytesSplitLoop sep fuel after
      .ok (before :: rest)
    | (before, _, false) => .ok [before]

/-- `bytes.Split(s, sep)` for a non-empty `sep`. -/
def bytesSplit (s sep : List UInt8) : Go (List (List UInt8)) := bytesSplitLoop sep (s.length + 1) s

/-- The UTF-8 encodings of the characters for which `unicode.IsSpace` holds: U+0009-U+000D, U+0020, U+0085, U+00A0, U+1680,
U+2000-U+200A, U+2028, U+2029, U+202F, U+205F, U+3000. -/
def spaceSequences : List (List UInt8) :=
  [[0x09], [0x0A], [0x0B], [0x0C], [0x0D], [0x20], [0xC2, 0x85], [0xC2, 0xA0], [0xE1, 0x9A, 0x80],
   [0xE2, 0x80, 0x80], [0xE2, 0x80, 0x81], [0xE2, 0x80, 0x82], [0xE2, 0x80, 0x83], [0xE2, 0x80, 0x84], [0xE2, 0x80, 0x85],
   [0xE2, 0x80, 0x86], [0xE2, 0x80, 0x87], [0xE2, 0x80, 0x88], [0xE2, 0x80, 0x89], [0xE2, 0x80, 0x8A],
   [0xE2, 0x80, 0xA8], [0xE2, 0x80, 0xA9], [0xE2, 0x80, 0xAF], [0xE2, 0x81, 0x9F], [0xE3, 0x80, 0x80]]

/-- The length of the white space character at the front, 0 if there is none. -/
def leadingSpace (s : List UInt8) : Nat :=
  if spaceSequences.contains (s.take 1) then 1
  else if spaceSequences.contains (s.take 2) then 2
  else if spaceSequences.contains (s.take 3) then 3
  else 0

/-- The length of the white space character at the end, 0 if there is none. -/
def trailingSpace (s : List UInt8) : Nat :=
  if spaceSequences.contains (s.drop (s.length - 1)) then 1
  else if spaceSequences.contains (s.drop (s.length - 2)) then 2
  else if spaceSequences.contains (s.drop (s.length - 3)) then 3
  else 0

/-- `bytes.TrimLeftFunc(s, unicode.IsSpace)` -/
def trimLeft : (fuel : Nat) → List UInt8 → List UInt8
  | 0, s => s
  | fuel + 1, s => if leadingSpace s = 0 then s else trimLeft fuel (s.drop (leadingSpace s))

/-- `bytes.TrimRightFunc(s, unicode.IsSpace)` -/
def trimRight : (fuel : Nat) → List UInt8 → List UInt8
  | 0, s => s
  | fuel + 1, s => if trailingSpace s = 0 then s else trimRight fuel (s.take (s.length - trailingSpace s))

/-- `bytes.TrimSpace(s)`: first the white space at the front, then the white space at the end is removed. Simplification:
the fast path for ASCII is left out, and white space is recognised by its bytes instead of decoding characters from the
front and from the end (a decoder finds a white space character exactly where these bytes are). `Model/TrimSpace.lean` has the
code itself; `goTrimSpace_eq` in `Proofs/TrimSpace.lean` proves that it computes the same. -/
def TrimSpace (s : List UInt8) : List UInt8 :=
  let t := trimLeft s.length s
  trimRight t.length t

/-- The value of a hexadecimal digit (`ParseUint` with base 16). -/
def hexDigitVal (c : UInt8) : Option Nat :=
  if 0x30 ≤ c ∧ c ≤ 0x39 then some (c.toNat - 0x30)
  else if 0x61 ≤ (c ||| 0x20) ∧ (c ||| 0x20) ≤ 0x66 then some ((c ||| 0x20).toNat - 0x61 + 10)
  else none

/-- The loop of `strconv.ParseUint(s, 16, 32)`; `none` for an error (syntax or range). The check against `cutoff` of the
Go code cannot fail because `n` never exceeds 2^32 - 1. -/
def parseUintLoop (n : Nat) : List UInt8 → Option Nat
  | [] => some n
  | c :: rest =>
    match hexDigitVal c with
    | none => none
    | some d => if 2 ^ 32 - 1 < n * 16 + d then none else parseUintLoop (n * 16 + d) rest

/-- `strconv.ParseUint(s, 16, 32)` -/
def ParseUint (s : List UInt8) : Option Nat := if s = [] then none else parseUintLoop 0 s

/-- `strconv.ParseInt(s, 16, 32)`. (If `ParseUint` reports a range error, so does `ParseInt`.) -/
def ParseInt (s : List UInt8) : Option Int :=
  match s with
  | [] => none
  | c :: rest =>
    let neg := c = 0x2D
    match ParseUint (if c = 0x2B ∨ c = 0x2D then rest else s) with
    | none => none
    | some un =>
      if ¬ neg ∧ 2 ^ 31 ≤ un then none
      else if neg ∧ 2 ^ 31 < un then none
      else some (if neg then - (un : Int) else un)

/-- `rune(x)` for `x` an `int64` or `uint64` -/
def toRune (x : Int) : Rune := Int32.ofInt x

/-- `utf8.EncodeRune(buf, r)`: the bytes written. -/
def EncodeRune (r : Rune) : List UInt8 :=
  let i := r.toUInt32.toNat
  if i ≤ 0x7F then [UInt8.ofNat i]
  else if i ≤ 0x7FF then [UInt8.ofNat (0xC0 ||| (i >>> 6)), UInt8.ofNat (0x80 ||| (i &&& 0x3F))]
  else if 0x10FFFF < i ∨ (0xD800 ≤ i ∧ i ≤ 0xDFFF) then [0xEF, 0xBF, 0xBD]
  else if i ≤ 0xFFFF then
    [UInt8.ofNat (0xE0 ||| (i >>> 12)), UInt8.ofNat (0x80 ||| ((i >>> 6) &&& 0x3F)), UInt8.ofNat (0x80 ||| (i &&& 0x3F))]
  else
    [UInt8.ofNat (0xF0 ||| (i >>> 18)), UInt8.ofNat (0x80 ||| ((i >>> 12) &&& 0x3F)),
     UInt8.ofNat (0x80 ||| ((i >>> 6) &&& 0x3F)), UInt8.ofNat (0x80 ||| (i &&& 0x3F))]

end Textseg
