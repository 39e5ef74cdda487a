import Verif.Model.Text
/-!
# The text of autoversion/go.mod

Generated by tools/gen_text.py.
-/

namespace Textseg.Text

/-- lines 1-8 -/
def autoMod0 : List Nat := [
text! "module github.com/apparentlymart/go-textseg/autoversion",
text! "",
text! "go 1.25",
text! "",
text! "require (",
text! "\tgithub.com/apparentlymart/go-textseg/v15 v15.0.0",
text! "\tgithub.com/apparentlymart/go-textseg/v17 v17.0.0",
text! ")"]

/-- The lines of the file, in parts of 64 lines. -/
def autoMod : List (List Nat) := [autoMod0]

end Textseg.Text
