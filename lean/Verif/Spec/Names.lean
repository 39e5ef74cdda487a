import Verif.Spec.UAX29
/-!
# Specification: names of property values in the Unicode data files
-/

namespace Textseg.Spec

/-- The name of a Grapheme_Cluster_Break value in GraphemeBreakProperty.txt (`Other` is the default in its
`@missing` line). -/
def GCB.ucdName : GCB → String
  | .Other => "Other" | .CR => "CR" | .LF => "LF" | .Control => "Control" | .Extend => "Extend" | .ZWJ => "ZWJ"
  | .RegionalIndicator => "Regional_Indicator" | .Prepend => "Prepend" | .SpacingMark => "SpacingMark"
  | .L => "L" | .V => "V" | .T => "T" | .LV => "LV" | .LVT => "LVT"

/-- The name of an Indic_Conjunct_Break value in DerivedCoreProperties.txt (`None` is the default in its `@missing`
line). -/
def InCB.ucdName : InCB → String
  | .None => "None" | .Consonant => "Consonant" | .Extend => "Extend" | .Linker => "Linker"

end Textseg.Spec
