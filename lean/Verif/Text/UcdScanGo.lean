import Verif.Model.Text
/-!
# The text of textseg/internal/charprops/ucdparse/ucd_scan.go

Generated by tools/gen_text.py.
-/

namespace Textseg.Text

/-- lines 1-64 -/
def ucdScanGo0 : List Nat := [
text! "package ucdparse",
text! "",
text! "import (",
text! "\t\"bufio\"",
text! "\t\"bytes\"",
text! "\t\"fmt\"",
text! "\t\"io\"",
text! "\t\"iter\"",
text! "\t\"strconv\"",
text! ")",
text! "",
text! "type Scanner struct {",
text! "\tlineScan *bufio.Scanner",
text! "}",
text! "",
text! "func NewScanner(r io.Reader) Scanner {",
text! "\treturn Scanner{",
text! "\t\tlineScan: bufio.NewScanner(r),",
text! "\t}",
text! "}",
text! "",
text! "func (sc Scanner) NextEntry() (Entry, error) {",
text! "\tfor {",
text! "\t\tif !sc.lineScan.Scan() {",
text! "\t\t\tif err := sc.lineScan.Err(); err != nil {",
text! "\t\t\t\treturn Entry{}, err",
text! "\t\t\t}",
text! "\t\t\treturn Entry{}, io.EOF",
text! "\t\t}",
text! "\t\traw := sc.lineScan.Bytes()",
text! "\t\traw, _, _ = bytes.Cut(raw, commentMarker)",
text! "\t\trng, fieldsRaw, ok := bytes.Cut(raw, fieldSeparator)",
text! "\t\tif !ok {",
text! "\t\t\tcontinue // Not a data line, then. We'll ignore it.",
text! "\t\t}",
text! "\t\trng = bytes.TrimSpace(rng)",
text! "\t\tfieldsRaw = bytes.TrimSpace(fieldsRaw)",
text! "\t\tstartHex, endHex, isRange := bytes.Cut(rng, rangeSeparator)",
text! "\t\tvar start, end rune",
text! "\t\tstartInt, err := strconv.ParseUint(string(startHex), 16, 32)",
text! "\t\tif err != nil {",
text! "\t\t\treturn Entry{}, fmt.Errorf(\"invalid start of character range %q: %s\", startHex, err)",
text! "\t\t}",
text! "\t\tstart = rune(startInt)",
text! "\t\tif isRange {",
text! "\t\t\tendInt, err := strconv.ParseUint(string(endHex), 16, 32)",
text! "\t\t\tif err != nil {",
text! "\t\t\t\treturn Entry{}, fmt.Errorf(\"invalid end of character range %q: %s\", endHex, err)",
text! "\t\t\t}",
text! "\t\t\tend = rune(endInt)",
text! "\t\t} else {",
text! "\t\t\tend = start",
text! "\t\t}",
text! "\t\treturn Entry{",
text! "\t\t\tStart:  start,",
text! "\t\t\tEnd:    end + 1,",
text! "\t\t\tFields: Fields(fieldsRaw),",
text! "\t\t}, nil",
text! "\t}",
text! "}",
text! "",
text! "type Entry struct {",
text! "\t// Start is inclusive, while End is exclusive, as is typical for Go slicing.",
text! "\tStart, End rune"]

/-- lines 65-102 -/
def ucdScanGo1 : List Nat := [
text! "\tFields     Fields",
text! "}",
text! "",
text! "func (e Entry) FirstField() string {",
text! "\treturn e.Fields.FirstString()",
text! "}",
text! "",
text! "func (e Entry) AllFields() iter.Seq[string] {",
text! "\treturn e.Fields.Strings()",
text! "}",
text! "",
text! "type Fields []byte",
text! "",
text! "func (f Fields) Strings() iter.Seq[string] {",
text! "\tremain := []byte(f)",
text! "\treturn func(yield func(string) bool) {",
text! "\t\tfor {",
text! "\t\t\tbefore, after, foundSep := bytes.Cut(remain, fieldSeparator)",
text! "\t\t\tval := bytes.TrimSpace(before)",
text! "\t\t\tif !yield(string(val)) {",
text! "\t\t\t\treturn",
text! "\t\t\t}",
text! "\t\t\tif !foundSep {",
text! "\t\t\t\treturn // all done, then",
text! "\t\t\t}",
text! "\t\t\tremain = after",
text! "\t\t}",
text! "\t}",
text! "}",
text! "",
text! "func (f Fields) FirstString() string {",
text! "\tbefore, _, _ := bytes.Cut(f, fieldSeparator)",
text! "\treturn string(bytes.TrimSpace(before))",
text! "}",
text! "",
text! "var commentMarker = []byte{'#'}",
text! "var fieldSeparator = []byte{';'}",
text! "var rangeSeparator = []byte{'.', '.'}"]

/-- The lines of the file, in parts of 64 lines. -/
def ucdScanGo : List (List Nat) := [ucdScanGo0, ucdScanGo1]

end Textseg.Text
