import Verif.Model.Text
/-!
# The text of autoversion/textseg/unicode17.go

Generated by tools/gen_text.py.
-/

namespace Textseg.Text

/-- lines 1-23 -/
def autoUnicode17Go0 : List Nat := [
text! "//go:build go1.27 && !go1.28",
text! "// +build go1.27,!go1.28",
text! "",
text! "package textseg",
text! "",
text! "import (",
text! "\tv17 \"github.com/apparentlymart/go-textseg/v17/textseg\"",
text! ")",
text! "",
text! "// ScanGraphemeClusters is a split function for bufio.Scanner that splits on",
text! "// grapheme cluster boundaries, using the text segmentation rules from the",
text! "// Unicode version selected by the current Go runtime library.",
text! "//",
text! "// This function will appear to be missing if your current Go version is not",
text! "// supported by your current version of this package.",
text! "func ScanGraphemeClusters(data []byte, atEOF bool) (int, []byte, error) {",
text! "\treturn v17.ScanGraphemeClusters(data, atEOF)",
text! "}",
text! "",
text! "// UnicodeMajorVersion is the major version of Unicode being used by this",
text! "// package. This should always match the first portion of the string returned",
text! "// by unicode.Version in the Go standard library.",
text! "const UnicodeMajorVersion = 17"]

/-- The lines of the file, in parts of 64 lines. -/
def autoUnicode17Go : List (List Nat) := [autoUnicode17Go0]

end Textseg.Text
