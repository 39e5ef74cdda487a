import Verif.Model.Text
/-!
# The text of autoversion/textseg/version_agnostic.go

Generated by tools/gen_text.py.
-/

namespace Textseg.Text

/-- lines 1-35 -/
def autoAgnosticGo0 : List Nat := [
text! "package textseg",
text! "",
text! "// The functions in this file are not currently specific to a given version of",
text! "// go-textseg, and have actually been removed in later major versions of the",
text! "// main module so this will just continue calling into v15's implementation",
text! "// for now, for backward-compatibility.",
text! "",
text! "import (",
text! "\t\"bufio\"",
text! "",
text! "\trealImpl \"github.com/apparentlymart/go-textseg/v15/textseg\"",
text! ")",
text! "",
text! "// ScanUTF8Sequences is a split function for bufio.Scanner that splits on UTF8 sequence boundaries.",
text! "//",
text! "// This is included largely for completeness, since this behavior is already built in to Go when ranging over a string.",
text! "//",
text! "// Deprecated: This will be removed in a future version.",
text! "func ScanUTF8Sequences(data []byte, atEOF bool) (int, []byte, error) {",
text! "\treturn realImpl.ScanUTF8Sequences(data, atEOF)",
text! "}",
text! "",
text! "// TokenCount is a utility that uses a bufio.SplitFunc to count the number of recognized tokens in the given buffer.",
text! "//",
text! "// Deprecated: This will be removed in a future version.",
text! "func TokenCount(buf []byte, splitFunc bufio.SplitFunc) (int, error) {",
text! "\treturn realImpl.TokenCount(buf, splitFunc)",
text! "}",
text! "",
text! "// AllTokens is a utility that uses a bufio.SplitFunc to produce a slice of all of the recognized tokens in the given buffer.",
text! "//",
text! "// Deprecated: This will be removed in a future version.",
text! "func AllTokens(buf []byte, splitFunc bufio.SplitFunc) ([][]byte, error) {",
text! "\treturn realImpl.AllTokens(buf, splitFunc)",
text! "}"]

/-- The lines of the file, in parts of 64 lines. -/
def autoAgnosticGo : List (List Nat) := [autoAgnosticGo0]

end Textseg.Text
