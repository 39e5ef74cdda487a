import Verif.Model.Text
/-!
# The text of textseg/internal/charprops/ucdparse/testdata_scan.go

Generated by tools/gen_text.py.
-/

namespace Textseg.Text

/-- lines 1-64 -/
def testdataScanGo0 : List Nat := [
text! "package ucdparse",
text! "",
text! "import (",
text! "\t\"bufio\"",
text! "\t\"bytes\"",
text! "\t\"fmt\"",
text! "\t\"io\"",
text! "\t\"strconv\"",
text! "\t\"unicode/utf8\"",
text! ")",
text! "",
text! "type TestDataScanner struct {",
text! "\tlineScan *bufio.Scanner",
text! "}",
text! "",
text! "func NewTestDataScanner(r io.Reader) TestDataScanner {",
text! "\treturn TestDataScanner{",
text! "\t\tlineScan: bufio.NewScanner(r),",
text! "\t}",
text! "}",
text! "",
text! "func (sc TestDataScanner) NextEntry() (TestDataEntry, error) {",
text! "\tfor {",
text! "\t\tif !sc.lineScan.Scan() {",
text! "\t\t\tif err := sc.lineScan.Err(); err != nil {",
text! "\t\t\t\treturn TestDataEntry{}, err",
text! "\t\t\t}",
text! "\t\t\treturn TestDataEntry{}, io.EOF",
text! "\t\t}",
text! "\t\traw := sc.lineScan.Bytes()",
text! "\t\traw, _, _ = bytes.Cut(raw, commentMarker)",
text! "\t\traw = bytes.TrimSpace(raw)",
text! "\t\tif len(raw) == 0 {",
text! "\t\t\tcontinue",
text! "\t\t}",
text! "\t\twantSegs := bytes.Split(raw, splitMarker)",
text! "",
text! "\t\tentry := TestDataEntry{}",
text! "\t\tfor _, wantSeg := range wantSegs {",
text! "\t\t\tcharsHex := bytes.Split(wantSeg, nonsplitMarker)",
text! "\t\t\tvar currentSeg []byte",
text! "\t\t\tfor _, charHex := range charsHex {",
text! "\t\t\t\tcharHexStr := string(bytes.TrimSpace(charHex))",
text! "\t\t\t\tif len(charHexStr) == 0 {",
text! "\t\t\t\t\tcontinue",
text! "\t\t\t\t}",
text! "\t\t\t\tcharInt, err := strconv.ParseInt(charHexStr, 16, 32)",
text! "\t\t\t\tif err != nil {",
text! "\t\t\t\t\treturn TestDataEntry{}, fmt.Errorf(\"invalid character reference %q\", charHexStr)",
text! "\t\t\t\t}",
text! "\t\t\t\tbuf := make([]byte, 4)",
text! "\t\t\t\tn := utf8.EncodeRune(buf, rune(charInt))",
text! "\t\t\t\tbuf = buf[:n]",
text! "\t\t\t\tentry.Input = append(entry.Input, buf...)",
text! "\t\t\t\tcurrentSeg = append(currentSeg, buf...)",
text! "\t\t\t}",
text! "\t\t\tif len(currentSeg) != 0 {",
text! "\t\t\t\tentry.WantSegments = append(entry.WantSegments, currentSeg)",
text! "\t\t\t}",
text! "\t\t}",
text! "\t\treturn entry, nil",
text! "\t}",
text! "}",
text! ""]

/-- lines 65-71 -/
def testdataScanGo1 : List Nat := [
text! "type TestDataEntry struct {",
text! "\tInput        []byte",
text! "\tWantSegments [][]byte",
text! "}",
text! "",
text! "var splitMarker = []byte(\"÷\")",
text! "var nonsplitMarker = []byte(\"×\")"]

/-- The lines of the file, in parts of 64 lines. -/
def testdataScanGo : List (List Nat) := [testdataScanGo0, testdataScanGo1]

end Textseg.Text
