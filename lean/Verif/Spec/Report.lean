import Verif.Spec.UCD
import Verif.Spec.Names
import Verif.Spec.UCDFormat
import Verif.Model.Go
/-!
# Specification: how the report of a failing conformance test shows a character
-/

namespace Textseg.Spec

/-- The property values of a character, by their names in the data files, separated by "|". -/
def CharProps.text (p : CharProps) : String :=
  let parts := (if p.gcb = .Other then [] else [p.gcb.ucdName]) ++ (if p.extPict then ["Extended_Pictographic"] else []) ++
    (if p.incb = .None then [] else ["InCB=" ++ p.incb.ucdName])
  if parts = [] then "None" else "|".intercalate parts

/-- "0x" and the code point of the character in lower-case hexadecimal, with leading zeros up to four digits. -/
def IsCodePointText (s : List UInt8) (c : Char) : Prop :=
  ∃ ds, s = str "0x" ++ ds ∧ IsHex ds c.val.toNat ∧ 4 ≤ ds.length ∧ (ds.length = 4 ∨ ds.head? ≠ some 0x30) ∧
    ∀ d ∈ ds, d ∈ str "0123456789abcdef"

end Textseg.Spec
