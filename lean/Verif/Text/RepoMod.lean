import Verif.Model.Text
/-!
# The text of go.mod

Generated by tools/gen_text.py.
-/

namespace Textseg.Text

/-- lines 1-3 -/
def repoMod0 : List Nat := [
text! "module github.com/apparentlymart/go-textseg/v17",
text! "",
text! "go 1.25"]

/-- The lines of the file, in parts of 64 lines. -/
def repoMod : List (List Nat) := [repoMod0]

end Textseg.Text
