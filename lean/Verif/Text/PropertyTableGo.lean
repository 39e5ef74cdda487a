import Verif.Model.Text
/-!
# The text of textseg/internal/charprops/property_table.go

Generated by tools/gen_text.py.
-/

namespace Textseg.Text

/-- lines 1-64 -/
def propertyTableGo0 : List Nat := [
text! "package charprops",
text! "",
text! "//go:generate go run ./generate.go",
text! "",
text! "var zeroProperties CharProperties",
text! "",
text! "// LookupFirstChar identifies the grapheme cluster segmentation properties and",
text! "// the byte length of the first UTF-8 sequence in the given buffer.",
text! "//",
text! "// If there are not enough bytes in the buffer to recognize a complete UTF-8",
text! "// sequence then this returns a length of zero and a meaningless",
text! "// [CharProperties] value.",
text! "//",
text! "// If the buffer begins with something that cannot possibly be extended to a",
text! "// valid UTF-8 sequence then the returned properties are [Error] and length",
text! "// as 1 to represent treating just the next byte as an error.",
text! "func LookupFirstChar(p []byte) (props CharProperties, length int) {",
text! "\tif len(p) == 0 {",
text! "\t\treturn zeroProperties, 0",
text! "\t}",
text! "",
text! "\tfirst := p[0]",
text! "\tif first < 128 {",
text! "\t\tlength = 1",
text! "\t} else if (first & 0b11100000) == 0b11000000 {",
text! "\t\tlength = 2",
text! "\t} else if (first & 0b11110000) == 0b11100000 {",
text! "\t\tlength = 3",
text! "\t} else if (first & 0b11111000) == 0b11110000 {",
text! "\t\tlength = 4",
text! "\t} else {",
text! "\t\t// Invalid initial byte.",
text! "\t\treturn Error, 1",
text! "\t}",
text! "",
text! "\tif len(p) < length {",
text! "\t\t// Buffer begins with incomplete UTF-8 sequence.",
text! "\t\treturn zeroProperties, 0",
text! "\t}",
text! "\t// All of the subsequent bytes of the sequence we're decoding (if any)",
text! "\t// must be UTF-8 continuation bytes.",
text! "\tfor i := 1; i < length; i++ {",
text! "\t\tif (p[i] & 0b11000000) != 0b10000000 {",
text! "\t\t\treturn Error, 1",
text! "\t\t}",
text! "\t}",
text! "",
text! "\tswitch length {",
text! "\tcase 1:",
text! "\t\treturn lookupProps[first], length",
text! "\tcase 2:",
text! "\t\tblockIdx := int(lookupIndices[first&0b111111])",
text! "\t\treturn lookupProps[(blockIdx<<6)+int(p[1]&0b111111)], length",
text! "\tcase 3:",
text! "\t\tblockIdx := int(lookupIndices[first&0b111111])",
text! "\t\tblockIdx = int(lookupIndices[(blockIdx<<6)+int(p[1]&0b111111)])",
text! "\t\treturn lookupProps[(blockIdx<<6)+int(p[2]&0b111111)], length",
text! "\tcase 4:",
text! "\t\tblockIdx := int(lookupIndices[first&0b111111])",
text! "\t\tblockIdx = int(lookupIndices[(blockIdx<<6)+int(p[1]&0b111111)])",
text! "\t\tblockIdx = int(lookupIndices[(blockIdx<<6)+int(p[2]&0b111111)])",
text! "\t\treturn lookupProps[(blockIdx<<6)+int(p[3]&0b111111)], length",
text! "\tdefault:",
text! "\t\tpanic(\"unreachable\") // (because we should've caught this case above)"]

/-- lines 65-66 -/
def propertyTableGo1 : List Nat := [
text! "\t}",
text! "}"]

/-- The lines of the file, in parts of 64 lines. -/
def propertyTableGo : List (List Nat) := [propertyTableGo0, propertyTableGo1]

end Textseg.Text
