import Verif.Spec.UCDFormat
/-!
# Specification: what any line of a segmentation test file means

`Verif/Spec/UCDFormat.lean` describes the well-formed lines; this file covers all lines.
-/

namespace Textseg.Spec

/-- `s` is cut at the occurrences of `sep`: the pieces do not contain it. -/
inductive SplitBy (sep : List UInt8) : List UInt8 → List (List UInt8) → Prop
  | last (s : List UInt8) : ¬ sep <:+: s → SplitBy sep s [s]
  | cons (s rest : List UInt8) (ps : List (List UInt8)) : ¬ sep <:+: s → SplitBy sep rest ps →
      SplitBy sep (s ++ sep ++ rest) (s :: ps)

/-- A hexadecimal numeral, possibly with a sign, and its value. -/
inductive IsSignedHex : List UInt8 → Int → Prop
  | plain (t : List UInt8) (n : Nat) : IsHex t n → IsSignedHex t n
  | plus (t : List UInt8) (n : Nat) : IsHex t n → IsSignedHex (0x2B :: t) n
  | minus (t : List UInt8) (n : Nat) : IsHex t n → IsSignedHex (0x2D :: t) (- (n : Int))

/-- The numbers of 32 bits. -/
def Is32Bit (v : Int) : Prop := -2 ^ 31 ≤ v ∧ v < 2 ^ 31

/-- The character for a number: U+FFFD if it is not a Unicode scalar value. -/
def charFor (v : Int) : Char := if 0 ≤ v ∧ v.toNat.isValidChar then Char.ofNat v.toNat else '\uFFFD'

/-- What is between two marks: nothing, a character, or an error (with the text that is no number). -/
inductive PieceMeans : List UInt8 → Except (List UInt8) (List Char) → Prop
  | blank (p : List UInt8) : Padded [] p → PieceMeans p (.ok [])
  | char (p t : List UInt8) (v : Int) : Padded t p → IsSignedHex t v → Is32Bit v → PieceMeans p (.ok [charFor v])
  | bad (p t : List UInt8) : Padded t p → t ≠ [] → (∀ v, IsSignedHex t v → ¬ Is32Bit v) → PieceMeans p (.error t)

/-- The pieces of a segment: its characters, or the first error. -/
inductive SegmentMeans : List (List UInt8) → Except (List UInt8) (List Char) → Prop
  | nil : SegmentMeans [] (.ok [])
  | ok (p : List UInt8) (ps : List (List UInt8)) (cs cs' : List Char) : PieceMeans p (.ok cs) → SegmentMeans ps (.ok cs') →
      SegmentMeans (p :: ps) (.ok (cs ++ cs'))
  | here (p : List UInt8) (ps : List (List UInt8)) (t : List UInt8) : PieceMeans p (.error t) → SegmentMeans (p :: ps) (.error t)
  | later (p : List UInt8) (ps : List (List UInt8)) (cs : List Char) (t : List UInt8) : PieceMeans p (.ok cs) →
      SegmentMeans ps (.error t) → SegmentMeans (p :: ps) (.error t)

/-- The segments, which are cut at the multiplication signs: the characters of each, or the first error. -/
inductive SegmentsMean : List (List UInt8) → Except (List UInt8) (List (List Char)) → Prop
  | nil : SegmentsMean [] (.ok [])
  | ok (s : List UInt8) (ps : List (List UInt8)) (ss : List (List UInt8)) (cs : List Char) (css : List (List Char)) :
      SplitBy multiplicationSign s ps → SegmentMeans ps (.ok cs) → SegmentsMean ss (.ok css) → SegmentsMean (s :: ss) (.ok (cs :: css))
  | here (s : List UInt8) (ps : List (List UInt8)) (ss : List (List UInt8)) (t : List UInt8) :
      SplitBy multiplicationSign s ps → SegmentMeans ps (.error t) → SegmentsMean (s :: ss) (.error t)
  | later (s : List UInt8) (ps : List (List UInt8)) (ss : List (List UInt8)) (cs : List Char) (t : List UInt8) :
      SplitBy multiplicationSign s ps → SegmentMeans ps (.ok cs) → SegmentsMean ss (.error t) → SegmentsMean (s :: ss) (.error t)

/-- What a line means: nothing (`none`), a test (the segments, of which empty ones are left out) or an error. The line
without its comment and without white space around it is cut at the division signs. -/
inductive TestLineMeans : List UInt8 → Option (Except (List UInt8) (List (List Char))) → Prop
  | blank (line : List UInt8) : IsBlankLine line → TestLineMeans line none
  | test (line body core : List UInt8) (ss : List (List UInt8)) (css : List (List Char)) : Body line body → Padded core body →
      core ≠ [] → SplitBy divisionSign core ss → SegmentsMean ss (.ok css) →
      TestLineMeans line (some (.ok (css.filter fun cs => !cs.isEmpty)))
  | bad (line body core : List UInt8) (ss : List (List UInt8)) (t : List UInt8) : Body line body → Padded core body →
      core ≠ [] → SplitBy divisionSign core ss → SegmentsMean ss (.error t) → TestLineMeans line (some (.error t))

/-- What the lines of a file mean: the tests up to the first line with an error, and that error. -/
inductive TestFileMeans : List (List UInt8) → List (List (List Char)) → Option (List UInt8) → Prop
  | done : TestFileMeans [] [] none
  | skip (l ls ts e) : TestLineMeans l none → TestFileMeans ls ts e → TestFileMeans (l :: ls) ts e
  | test (l ls ts segs e) : TestLineMeans l (some (.ok segs)) → TestFileMeans ls ts e → TestFileMeans (l :: ls) (segs :: ts) e
  | bad (l ls t) : TestLineMeans l (some (.error t)) → TestFileMeans (l :: ls) [] (some t)

end Textseg.Spec
