import Verif.Spec.GenFiles
import Verif.Spec.TestLine
/-!
# Specification: what the table tests check

An entry of a data file is (first, last, fields), see `Verif/Spec/UCDFormat.lean`. A check is a code point and the code that
the tested part of its properties should have.
-/

namespace Textseg.Spec

/-- The code points of the entries for which `want` gives a code, in order, each with that code. -/
def checksOf (want : FileEntry → Option UInt8) (es : List FileEntry) : List (Nat × UInt8) :=
  es.flatMap fun x => match want x with
    | none => []
    | some v => (List.range (x.2.1 + 1 - x.1)).map fun i => (x.1 + i, v)

/-- GraphemeBreakProperty.txt: the code of the first field. -/
def gcbWant (code : List UInt8 → UInt8) (x : FileEntry) : Option UInt8 := x.2.2.head?.map code

/-- emoji-data.txt: 4, for entries whose first field is Extended_Pictographic. -/
def pictWant (x : FileEntry) : Option UInt8 := if x.2.2.head? = some (ascii "Extended_Pictographic") then some 4 else none

/-- DerivedCoreProperties.txt: the code of the second field, for entries whose first field is InCB. -/
def incbWant (code : List UInt8 → UInt8) (x : FileEntry) : Option UInt8 :=
  match x.2.2 with
  | prop :: name :: _ => if prop = ascii "InCB" then some (code name) else none
  | _ => none

end Textseg.Spec
