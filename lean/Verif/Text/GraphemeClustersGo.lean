import Verif.Model.Text
/-!
# The text of textseg/grapheme_clusters.go

Generated by tools/gen_text.py.
-/

namespace Textseg.Text

/-- lines 1-64 -/
def graphemeClustersGo0 : List Nat := [
text! "package textseg",
text! "",
text! "import (",
text! "\t\"github.com/apparentlymart/go-textseg/v17/textseg/internal/charprops\"",
text! "\t\"github.com/apparentlymart/go-textseg/v17/textseg/internal/machine\"",
text! ")",
text! "",
text! "// ScanGraphemeClusters is a split function for [bufio.Scanner] that splits",
text! "// on grapheme cluster boundaries.",
text! "//",
text! "// Note that while this function does some minimal UTF-8 validation as part",
text! "// of its work, it never actually returns an error and instead just reports",
text! "// invalid bytes as individual grapheme clusters. Also in particular it does",
text! "// not currently check for overlong encodings or out-of-range Unicode scalar",
text! "// values, and so callers should perform their own validation if needed. The",
text! "// handling of overlong and out-of-range input may change in future releases.",
text! "func ScanGraphemeClusters(data []byte, atEOF bool) (int, []byte, error) {",
text! "\tif len(data) == 0 {",
text! "\t\treturn 0, nil, nil",
text! "\t}",
text! "",
text! "\tproperties, count := charprops.LookupFirstChar(data)",
text! "\tif properties == charprops.Error {",
text! "\t\treturn 1, data[:1], nil",
text! "\t}",
text! "\tif count == 0 {",
text! "\t\tif len(data) > count && atEOF {",
text! "\t\t\t// If we're already at EOF then this is invalid input, which",
text! "\t\t\t// we treat as each invalid byte being a separate grapheme cluster.",
text! "\t\t\treturn 1, data[:1], nil",
text! "\t\t}",
text! "\t\treturn 0, nil, nil",
text! "\t}",
text! "\tremain := data[count:]",
text! "",
text! "\tstate := machine.Begin(properties)",
text! "\tprev := properties",
text! "\tfor {",
text! "\t\tif len(remain) == 0 {",
text! "\t\t\tif atEOF {",
text! "\t\t\t\t// If we're at the end of the file then whatever we've",
text! "\t\t\t\t// accumulated so far is a grapheme cluster.",
text! "\t\t\t\treturn count, data[:count], nil",
text! "\t\t\t}",
text! "\t\t\t// If we're not at the end of the file then we'll need more",
text! "\t\t\t// bytes before we can decide if we've reached the end of a",
text! "\t\t\t// grapheme cluster.",
text! "\t\t\treturn 0, nil, nil",
text! "\t\t}",
text! "",
text! "\t\tnext, moreCount := charprops.LookupFirstChar(remain)",
text! "\t\tif next == charprops.Error {",
text! "\t\t\t// If the next sequence is invalid then we'll just return here",
text! "\t\t\t// and let the next call deal with that.",
text! "\t\t\treturn count, data[:count], nil",
text! "\t\t}",
text! "\t\tif moreCount == 0 {",
text! "\t\t\t// More bytes required to complete the next UTF-8 sequence.",
text! "\t\t\tif len(remain) != 0 && atEOF {",
text! "\t\t\t\t// If we're already at EOF then the next UTF-8 sequence is",
text! "\t\t\t\t// invalid, so we'll report what we already accumulated and",
text! "\t\t\t\t// then let a subsequent call deal with the invalid byte.",
text! "\t\t\t\treturn count, data[:count], nil",
text! "\t\t\t}"]

/-- lines 65-79 -/
def graphemeClustersGo1 : List Nat := [
text! "\t\t\treturn 0, nil, nil",
text! "\t\t}",
text! "\t\tremain = remain[moreCount:]",
text! "",
text! "\t\tsplit, nextState := state.Transition(prev, next)",
text! "\t\tif split {",
text! "\t\t\t// We've found the next split point, so we'll just return what",
text! "\t\t\t// we have and then let the next call pick up from here.",
text! "\t\t\treturn count, data[:count], nil",
text! "\t\t}",
text! "\t\tcount += moreCount",
text! "\t\tstate = nextState",
text! "\t\tprev = next",
text! "\t}",
text! "}"]

/-- The lines of the file, in parts of 64 lines. -/
def graphemeClustersGo : List (List Nat) := [graphemeClustersGo0, graphemeClustersGo1]

end Textseg.Text
