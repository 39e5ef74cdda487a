import Verif.Model.Text
/-!
# The text of textseg/internal/charprops/generate.go

Generated by tools/gen_text.py.
-/

namespace Textseg.Text

/-- lines 1-64 -/
def generateGo0 : List Nat := [
text! "//go:build ignore",
text! "// +build ignore",
text! "",
text! "package main",
text! "",
text! "import (",
text! "\t\"bytes\"",
text! "\t\"fmt\"",
text! "\t\"go/format\"",
text! "\t\"math\"",
text! "\t\"os\"",
text! "",
text! "\t\"github.com/apparentlymart/go-textseg/v17/textseg/internal/charprops/gentable\"",
text! ")",
text! "",
text! "func main() {",
text! "\ttree, err := gentable.BuildRawPropertyTree(\"ucd\")",
text! "\tif err != nil {",
text! "\t\tfmt.Fprintf(os.Stderr, \"Error: %s\\n\", err)",
text! "\t\tos.Exit(1)",
text! "\t}",
text! "",
text! "\tvar buf bytes.Buffer",
text! "\tfmt.Fprintln(&buf, \"// Generated by generate.go. DO NOT EDIT!\")",
text! "\tfmt.Fprintln(&buf, \"\")",
text! "\tfmt.Fprintln(&buf, \"package charprops\")",
text! "\tfmt.Fprintln(&buf, \"\")",
text! "",
text! "\t// The tree builder uses uint16 for the indices because in theory we could",
text! "\t// need that in future, but currently the tree is small enough that",
text! "\t// uint8 is actually sufficient and so we'll use that for now to avoid",
text! "\t// redundantly storing a bunch of zeroes.",
text! "\tfmt.Fprintln(&buf, \"var lookupIndices = [...]uint8{\")",
text! "\tfor i := 0; i < len(tree.Indices); i += 8 {",
text! "\t\tif (i % 64) == 0 {",
text! "\t\t\tfmt.Fprintf(&buf, \"  // block 0x%04x\\n\", i>>6)",
text! "\t\t}",
text! "\t\titems := tree.Indices[i:]",
text! "\t\titems = items[:min(len(items), 8)]",
text! "\t\tfmt.Fprint(&buf, \"\\t\")",
text! "\t\tfor _, v := range items {",
text! "\t\t\tif v > math.MaxUint8 {",
text! "\t\t\t\tpanic(\"too many indices to use uint8\")",
text! "\t\t\t}",
text! "\t\t\tfmt.Fprintf(&buf, \"0x%02x,\", v)",
text! "\t\t}",
text! "\t\tfmt.Fprint(&buf, \"\\n\")",
text! "\t}",
text! "\tfmt.Fprintln(&buf, \"}\")",
text! "",
text! "\tfmt.Fprintln(&buf, \"var lookupProps = [...]CharProperties{\")",
text! "\tfor i := 0; i < len(tree.Properties); i += 8 {",
text! "\t\tif (i % 64) == 0 {",
text! "\t\t\tfmt.Fprintf(&buf, \"  // block 0x%04x\\n\", i>>6)",
text! "\t\t}",
text! "\t\titems := tree.Properties[i:]",
text! "\t\titems = items[:min(len(items), 8)]",
text! "\t\tfmt.Fprint(&buf, \"\\t\")",
text! "\t\tfor _, v := range items {",
text! "\t\t\tfmt.Fprintf(&buf, \"0x%02x,\", v)",
text! "\t\t}",
text! "\t\tfmt.Fprint(&buf, \"\\n\")",
text! "\t}",
text! "\tfmt.Fprintln(&buf, \"}\")"]

/-- lines 65-78 -/
def generateGo1 : List Nat := [
text! "",
text! "\tsrc, err := format.Source(buf.Bytes())",
text! "\tif err != nil {",
text! "\t\tfmt.Fprintf(os.Stderr, \"Error: %s\\n\", err)",
text! "\t\tos.Exit(1)",
text! "\t}",
text! "",
text! "\tf, err := os.Create(\"property_table_raw.go\")",
text! "\tif err != nil {",
text! "\t\tfmt.Fprintf(os.Stderr, \"Error: %s\\n\", err)",
text! "\t\tos.Exit(1)",
text! "\t}",
text! "\tf.Write(src)",
text! "}"]

/-- The lines of the file, in parts of 64 lines. -/
def generateGo : List (List Nat) := [generateGo0, generateGo1]

end Textseg.Text
