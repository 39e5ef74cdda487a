import Verif.Spec.UAX29
/-!
# Specification: which combinations of property values occur together

UAX #44 and emoji-data.txt imply these invariants of the Unicode Character Database: a pictograph and an Indic consonant
have no grapheme cluster break value of their own, and InCB=Extend/Linker are combining marks or ZWJ. For the shipped data
files this is proved (`ucd_consistent`).
-/

namespace Textseg.Spec

structure CharProps.Consistent (p : CharProps) : Prop where
  pict : p.extPict = true → p.gcb = .Other ∧ p.incb = .None
  consonant : p.incb = .Consonant → p.gcb = .Other
  joiner : p.incb = .Extend ∨ p.incb = .Linker → p.gcb = .Extend ∨ p.gcb = .ZWJ

end Textseg.Spec
