import Verif.Spec.Bytes
/-!
# Specification: the text formats of the Unicode data files

These definitions describe lines of bytes; they do not mention the parser.
-/

namespace Textseg.Spec

/-- `#`, `;`, newline, carriage return -/
abbrev hash : UInt8 := 0x23
abbrev semicolon : UInt8 := 0x3B
abbrev newline : UInt8 := 0x0A
abbrev carriageReturn : UInt8 := 0x0D

/-- The characters with the Unicode property White_Space. -/
def whiteSpace : List Char :=
  ['\u0009', '\u000A', '\u000B', '\u000C', '\u000D', '\u0020', '\u0085', '\u00A0', '\u1680', '\u2000', '\u2001', '\u2002',
   '\u2003', '\u2004', '\u2005', '\u2006', '\u2007', '\u2008', '\u2009', '\u200A', '\u2028', '\u2029', '\u202F', '\u205F',
   '\u3000']

/-- Any number of white space characters. -/
def IsSpaces (w : List UInt8) : Prop := ∃ cs : List Char, (∀ c ∈ cs, c ∈ whiteSpace) ∧ w = utf8 cs

/-- A text that neither begins nor ends with a white space character. -/
def Trimmed (t : List UInt8) : Prop := ∀ c ∈ whiteSpace, ∀ r, t ≠ utf8 [c] ++ r ∧ t ≠ r ++ utf8 [c]

/-- `s` is the text `t` with white space around it. -/
def Padded (t s : List UInt8) : Prop := Trimmed t ∧ ∃ w w', IsSpaces w ∧ IsSpaces w' ∧ s = w ++ t ++ w'

/-- A hexadecimal digit, in lower or upper case. -/
def hexDigitByte (d : Fin 16) (upper : Bool) : UInt8 :=
  if d.val < 10 then 0x30 + UInt8.ofNat d.val else if upper then 0x41 + UInt8.ofNat (d.val - 10) else 0x61 + UInt8.ofNat (d.val - 10)

/-- A hexadecimal numeral and its value. -/
inductive IsHex : List UInt8 → Nat → Prop
  | digit (d : Fin 16) (upper : Bool) : IsHex [hexDigitByte d upper] d.val
  | snoc (ds : List UInt8) (v : Nat) (d : Fin 16) (upper : Bool) : IsHex ds v →
      IsHex (ds ++ [hexDigitByte d upper]) (v * 16 + d.val)

/-- `body` is the line without its comment. -/
def Body (line body : List UInt8) : Prop := hash ∉ body ∧ (line = body ∨ ∃ comment, line = body ++ hash :: comment)

/-- One hexadecimal number below 2^32, or two separated by "..". -/
def RangeText (rng : List UInt8) (lo hi : Nat) : Prop :=
  lo < 2 ^ 32 ∧ hi < 2 ^ 32 ∧
    ((IsHex rng lo ∧ hi = lo) ∨ ∃ a b, rng = a ++ [0x2E, 0x2E] ++ b ∧ IsHex a lo ∧ IsHex b hi)

/-- One or more fields separated by semicolons, with white space around them. -/
inductive FieldsText : List UInt8 → List (List UInt8) → Prop
  | last (s t : List UInt8) : semicolon ∉ s → Padded t s → FieldsText s [t]
  | cons (s t rest : List UInt8) (ts : List (List UInt8)) : semicolon ∉ s → Padded t s → FieldsText rest ts →
      FieldsText (s ++ semicolon :: rest) (t :: ts)

/-- A line without a semicolon (outside the comment). -/
def IsIgnoredLine (line : List UInt8) : Prop := ∃ body, Body line body ∧ semicolon ∉ body

/-- A data line: a range, a semicolon, fields. -/
def IsEntryLine (line : List UInt8) (lo hi : Nat) (fields : List (List UInt8)) : Prop :=
  ∃ r rng ft, Body line (r ++ semicolon :: ft) ∧ semicolon ∉ r ∧ Padded rng r ∧ RangeText rng lo hi ∧ FieldsText ft fields

/-- A line with a semicolon, but what comes before the first one is not a range. -/
def IsMalformedLine (line : List UInt8) : Prop :=
  ∃ r rng ft, Body line (r ++ semicolon :: ft) ∧ semicolon ∉ r ∧ Padded rng r ∧ ∀ lo hi, ¬ RangeText rng lo hi

/-- `x` is what comes before the first `..` in `rng`, or all of `rng` if there is none. -/
def StartText (rng x : List UInt8) : Prop :=
  (x = rng ∧ ¬ [0x2E, 0x2E] <:+: rng) ∨ ∃ b, rng = x ++ [0x2E, 0x2E] ++ b ∧ ¬ [0x2E, 0x2E] <:+: x ++ [0x2E]

/-- What stands for the start of the range in the line is `x`, and this is not a hexadecimal number with 32 bits. -/
def BadStart (line x : List UInt8) : Prop :=
  ∃ r rng ft, Body line (r ++ semicolon :: ft) ∧ semicolon ∉ r ∧ Padded rng r ∧ StartText rng x ∧ ∀ n, n < 2 ^ 32 → ¬ IsHex x n

/-- The start of the range in the line is a number, but what stands for its end is `x`, and this is not a hexadecimal number with 32 bits. -/
def BadEnd (line x : List UInt8) : Prop :=
  ∃ r rng ft, Body line (r ++ semicolon :: ft) ∧ semicolon ∉ r ∧ Padded rng r ∧ (∃ a lo, rng = a ++ [0x2E, 0x2E] ++ x ∧ IsHex a lo ∧ lo < 2 ^ 32) ∧
    ∀ n, n < 2 ^ 32 → ¬ IsHex x n

/-- `D` consists of the given lines, each ended by LF or CR LF, except that the last line may end with the file. (If there
is no CR LF, a CR before the LF would not belong to the line.) -/
inductive FileOf : List (List UInt8) → List UInt8 → Prop
  | nil : FileOf [] []
  | last (l : List UInt8) : newline ∉ l → l ≠ [] → l.getLast? ≠ some carriageReturn → FileOf [l] l
  | lastCR (l : List UInt8) : newline ∉ l → FileOf [l] (l ++ [carriageReturn])
  | lf (l : List UInt8) (ls : List (List UInt8)) (D : List UInt8) : newline ∉ l → l.getLast? ≠ some carriageReturn →
      FileOf ls D → FileOf (l :: ls) (l ++ newline :: D)
  | crlf (l : List UInt8) (ls : List (List UInt8)) (D : List UInt8) : newline ∉ l → FileOf ls D →
      FileOf (l :: ls) (l ++ carriageReturn :: newline :: D)

/-- The lines of the file are not too long: any 65536 bytes in a row contain a newline. (So a line, with its end, has at most
65536 bytes.) -/
def ShortLines (D : List UInt8) : Prop := ∀ a b c, D = a ++ b ++ c → b.length = 65536 → newline ∈ b

/-- The file `D` begins with the lines `lines`, which are not too long, and after them come at least `n` bytes, of which the
first 65536 are not a newline. -/
def LongLineAfter (n : Nat) (lines : List (List UInt8)) (D : List UInt8) : Prop :=
  ∃ head long, D = head ++ long ∧ FileOf lines head ∧ (head = [] ∨ head.getLast? = some newline) ∧ ShortLines head ∧
    newline ∉ long.take 65536 ∧ n ≤ long.length

/-- How reading a file ends. -/
inductive FileEnd where
  /-- all lines have been read -/
  | complete
  /-- at this malformed line -/
  | malformed (line : List UInt8)
deriving DecidableEq

/-- The entries (first, last, fields) that the lines mean, up to the first malformed line. -/
inductive LinesMean : List (List UInt8) → List (Nat × Nat × List (List UInt8)) → FileEnd → Prop
  | done : LinesMean [] [] .complete
  | skip (l ls es e) : IsIgnoredLine l → LinesMean ls es e → LinesMean (l :: ls) es e
  | entry (l ls es e lo hi fields) : IsEntryLine l lo hi fields → LinesMean ls es e →
      LinesMean (l :: ls) ((lo, hi, fields) :: es) e
  | malformed (l ls) : IsMalformedLine l → LinesMean (l :: ls) [] (.malformed l)

/-- Two lists of the same length, related element by element. -/
inductive ForallTwo {α β : Type} (R : α → β → Prop) : List α → List β → Prop
  | nil : ForallTwo R [] []
  | cons (a b as bs) : R a b → ForallTwo R as bs → ForallTwo R (a :: as) (b :: bs)

/-! ## GraphemeBreakTest.txt -/

/-- U+00F7 and U+00D7 in UTF-8 -/
abbrev divisionSign : List UInt8 := [0xC3, 0xB7]
abbrev multiplicationSign : List UInt8 := [0xC3, 0x97]

/-- The characters of a segment: hexadecimal code points, separated by multiplication signs, with white space around. -/
inductive SegmentText : List UInt8 → List Char → Prop
  | last (s t : List UInt8) (c : Char) : IsHex t c.val.toNat → Padded t s → SegmentText s [c]
  | cons (s t rest : List UInt8) (c : Char) (cs : List Char) : IsHex t c.val.toNat → Padded t s → SegmentText rest cs →
      SegmentText (s ++ multiplicationSign ++ rest) (c :: cs)

/-- Segments, separated by division signs, with a division sign at the end. -/
inductive SegmentsText : List UInt8 → List (List Char) → Prop
  | nil (s : List UInt8) : IsSpaces s → SegmentsText s []
  | cons (s rest : List UInt8) (seg : List Char) (segs : List (List Char)) : SegmentText s seg → SegmentsText rest segs →
      SegmentsText (s ++ divisionSign ++ rest) (seg :: segs)

/-- A line of GraphemeBreakTest.txt: a division sign, segments (at least one), a comment. -/
def IsTestLine (line : List UInt8) (segs : List (List Char)) : Prop :=
  segs ≠ [] ∧ ∃ w rest, IsSpaces w ∧ SegmentsText rest segs ∧ Body line (w ++ divisionSign ++ rest)

/-- An empty line or a comment line. -/
def IsBlankLine (line : List UInt8) : Prop := ∃ w, IsSpaces w ∧ Body line w

/-- The tests that the lines mean. -/
inductive TestLinesMean : List (List UInt8) → List (List (List Char)) → Prop
  | done : TestLinesMean [] []
  | skip (l ls ts) : IsBlankLine l → TestLinesMean ls ts → TestLinesMean (l :: ls) ts
  | test (l ls ts segs) : IsTestLine l segs → TestLinesMean ls ts → TestLinesMean (l :: ls) (segs :: ts)

end Textseg.Spec
