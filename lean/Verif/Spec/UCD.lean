import Verif.Spec.UCDData
/-!
# Specification: property values of code points, as listed in the shipped Unicode 17 data files
-/

namespace Textseg.Spec

/-- The value of the first listed range (inclusive bounds) that contains `c`. -/
def lookupRange {α : Type} (c : Nat) : List (Nat × Nat × α) → Option α
  | [] => none
  | (lo, hi, v) :: rs => if lo ≤ c ∧ c ≤ hi then some v else lookupRange c rs

/-- The properties of a code point: Grapheme_Cluster_Break from GraphemeBreakProperty.txt (default `Other`),
Extended_Pictographic from emoji-data.txt (default no), Indic_Conjunct_Break from DerivedCoreProperties.txt
(default `None`). -/
def ucd (c : Nat) : CharProps where
  gcb := (lookupRange c graphemeBreakProperty).getD .Other
  extPict := (lookupRange c extendedPictographic).isSome
  incb := (lookupRange c indicConjunctBreak).getD .None

end Textseg.Spec
