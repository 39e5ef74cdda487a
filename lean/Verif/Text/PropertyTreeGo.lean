import Verif.Model.Text
/-!
# The text of textseg/internal/charprops/gentable/property_tree.go

Generated by tools/gen_text.py.
-/

namespace Textseg.Text

/-- lines 1-6 -/
def propertyTreeGo0 : List Nat := [
text! "package gentable",
text! "",
text! "type RawPropertyTree struct {",
text! "\tIndices    []uint16",
text! "\tProperties []uint8",
text! "}"]

/-- The lines of the file, in parts of 64 lines. -/
def propertyTreeGo : List (List Nat) := [propertyTreeGo0]

end Textseg.Text
