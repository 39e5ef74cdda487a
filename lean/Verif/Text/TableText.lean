import Verif.Model.Text
/-!
# The text of textseg/internal/charprops/property_table_raw.go

Generated by tools/gen_text.py.
-/

namespace Textseg.Text

/-- lines 1-64 -/
def tableText0 : List Nat := [
text! "// Generated by generate.go. DO NOT EDIT!",
text! "",
text! "package charprops",
text! "",
text! "var lookupIndices = [...]uint8{",
text! "\t// block 0x0000",
text! "\t0x02, 0x02, 0x03, 0x02, 0x02, 0x02, 0x02, 0x02,",
text! "\t0x02, 0x02, 0x02, 0x02, 0x04, 0x05, 0x02, 0x02,",
text! "\t0x02, 0x02, 0x06, 0x02, 0x02, 0x02, 0x07, 0x08,",
text! "\t0x09, 0x0a, 0x02, 0x0b, 0x0c, 0x0d, 0x0e, 0x0f,",
text! "\t0x01, 0x02, 0x03, 0x04, 0x05, 0x05, 0x05, 0x05,",
text! "\t0x05, 0x05, 0x06, 0x07, 0x08, 0x09, 0x05, 0x0a,",
text! "\t0x15, 0x16, 0x16, 0x18, 0x16, 0x16, 0x16, 0x16,",
text! "\t0x16, 0x16, 0x16, 0x16, 0x16, 0x16, 0x16, 0x16,",
text! "\t// block 0x0001",
text! "\t0x10, 0x10, 0x10, 0x10, 0x10, 0x10, 0x10, 0x10,",
text! "\t0x10, 0x10, 0x10, 0x10, 0x10, 0x10, 0x10, 0x10,",
text! "\t0x10, 0x10, 0x10, 0x10, 0x10, 0x10, 0x10, 0x10,",
text! "\t0x10, 0x10, 0x10, 0x10, 0x10, 0x10, 0x10, 0x10,",
text! "\t0x11, 0x12, 0x13, 0x14, 0x15, 0x16, 0x17, 0x18,",
text! "\t0x19, 0x1a, 0x1b, 0x1c, 0x1d, 0x1e, 0x1f, 0x20,",
text! "\t0x21, 0x22, 0x23, 0x24, 0x25, 0x26, 0x27, 0x28,",
text! "\t0x29, 0x2a, 0x2b, 0x2c, 0x2d, 0x2e, 0x2f, 0x30,",
text! "\t// block 0x0002",
text! "\t0x31, 0x32, 0x33, 0x10, 0x34, 0x35, 0x36, 0x37,",
text! "\t0x10, 0x10, 0x10, 0x10, 0x10, 0x38, 0x10, 0x10,",
text! "\t0x10, 0x10, 0x10, 0x10, 0x10, 0x10, 0x10, 0x10,",
text! "\t0x10, 0x10, 0x10, 0x10, 0x39, 0x3a, 0x3b, 0x3c,",
text! "\t0x3d, 0x10, 0x3e, 0x10, 0x3f, 0x10, 0x10, 0x10,",
text! "\t0x40, 0x41, 0x42, 0x43, 0x44, 0x45, 0x46, 0x47,",
text! "\t0x48, 0x10, 0x10, 0x49, 0x10, 0x10, 0x10, 0x4a,",
text! "\t0x10, 0x10, 0x10, 0x10, 0x10, 0x10, 0x10, 0x10,",
text! "\t// block 0x0003",
text! "\t0x4b, 0x4c, 0x10, 0x4d, 0x4e, 0x10, 0x4f, 0x10,",
text! "\t0x10, 0x10, 0x10, 0x10, 0x50, 0x10, 0x10, 0x51,",
text! "\t0x10, 0x10, 0x10, 0x52, 0x10, 0x10, 0x53, 0x54,",
text! "\t0x55, 0x56, 0x57, 0x58, 0x59, 0x5a, 0x5b, 0x10,",
text! "\t0x10, 0x10, 0x10, 0x10, 0x5c, 0x10, 0x10, 0x10,",
text! "\t0x10, 0x10, 0x10, 0x10, 0x5d, 0x5e, 0x10, 0x10,",
text! "\t0x10, 0x10, 0x10, 0x5f, 0x10, 0x60, 0x10, 0x61,",
text! "\t0x10, 0x10, 0x10, 0x10, 0x10, 0x10, 0x10, 0x10,",
text! "\t// block 0x0004",
text! "\t0x62, 0x10, 0x63, 0x10, 0x10, 0x10, 0x10, 0x10,",
text! "\t0x10, 0x10, 0x64, 0x10, 0x10, 0x10, 0x10, 0x10,",
text! "\t0x10, 0x10, 0x10, 0x10, 0x10, 0x10, 0x10, 0x10,",
text! "\t0x10, 0x10, 0x10, 0x10, 0x10, 0x10, 0x10, 0x10,",
text! "\t0x10, 0x10, 0x10, 0x10, 0x10, 0x10, 0x10, 0x10,",
text! "\t0x10, 0x10, 0x10, 0x10, 0x10, 0x10, 0x10, 0x10,",
text! "\t0x10, 0x10, 0x10, 0x10, 0x10, 0x10, 0x10, 0x10,",
text! "\t0x10, 0x10, 0x10, 0x10, 0x10, 0x10, 0x10, 0x10,",
text! "\t// block 0x0005",
text! "\t0x10, 0x10, 0x10, 0x10, 0x10, 0x10, 0x10, 0x10,",
text! "\t0x10, 0x10, 0x10, 0x10, 0x10, 0x10, 0x10, 0x10,",
text! "\t0x10, 0x10, 0x10, 0x10, 0x10, 0x10, 0x10, 0x10,",
text! "\t0x10, 0x10, 0x10, 0x10, 0x10, 0x10, 0x10, 0x10,",
text! "\t0x10, 0x10, 0x10, 0x10, 0x10, 0x10, 0x10, 0x10,",
text! "\t0x10, 0x10, 0x10, 0x10, 0x10, 0x10, 0x10, 0x10,",
text! "\t0x10, 0x10, 0x10, 0x10, 0x10, 0x10, 0x10, 0x10,",
text! "\t0x10, 0x10, 0x10, 0x10, 0x10, 0x10, 0x10, 0x10,",
text! "\t// block 0x0006",
text! "\t0x10, 0x10, 0x10, 0x10, 0x10, 0x10, 0x10, 0x10,",
text! "\t0x10, 0x10, 0x10, 0x10, 0x10, 0x10, 0x10, 0x10,",
text! "\t0x10, 0x10, 0x10, 0x10, 0x10, 0x10, 0x10, 0x10,",
text! "\t0x10, 0x65, 0x66, 0x67, 0x10, 0x10, 0x10, 0x10,"]

/-- lines 65-128 -/
def tableText1 : List Nat := [
text! "\t0x68, 0x10, 0x69, 0x6a, 0x6b, 0x6c, 0x6d, 0x6e,",
text! "\t0x6f, 0x70, 0x71, 0x72, 0x10, 0x10, 0x10, 0x73,",
text! "\t0x74, 0x75, 0x76, 0x77, 0x78, 0x79, 0x7a, 0x74,",
text! "\t0x75, 0x76, 0x77, 0x78, 0x79, 0x7a, 0x74, 0x75,",
text! "\t// block 0x0007",
text! "\t0x76, 0x77, 0x78, 0x79, 0x7a, 0x74, 0x75, 0x76,",
text! "\t0x77, 0x78, 0x79, 0x7a, 0x74, 0x75, 0x76, 0x77,",
text! "\t0x78, 0x79, 0x7a, 0x74, 0x75, 0x76, 0x77, 0x78,",
text! "\t0x79, 0x7a, 0x74, 0x75, 0x76, 0x77, 0x78, 0x79,",
text! "\t0x7a, 0x74, 0x75, 0x76, 0x77, 0x78, 0x79, 0x7a,",
text! "\t0x74, 0x75, 0x76, 0x77, 0x78, 0x79, 0x7a, 0x74,",
text! "\t0x75, 0x76, 0x77, 0x78, 0x79, 0x7a, 0x74, 0x75,",
text! "\t0x76, 0x77, 0x78, 0x79, 0x7a, 0x74, 0x75, 0x76,",
text! "\t// block 0x0008",
text! "\t0x77, 0x78, 0x79, 0x7a, 0x74, 0x75, 0x76, 0x77,",
text! "\t0x78, 0x79, 0x7a, 0x74, 0x75, 0x76, 0x77, 0x78,",
text! "\t0x79, 0x7a, 0x74, 0x75, 0x76, 0x77, 0x78, 0x79,",
text! "\t0x7a, 0x74, 0x75, 0x76, 0x77, 0x78, 0x79, 0x7a,",
text! "\t0x74, 0x75, 0x76, 0x77, 0x78, 0x79, 0x7a, 0x74,",
text! "\t0x75, 0x76, 0x77, 0x78, 0x79, 0x7a, 0x74, 0x75,",
text! "\t0x76, 0x77, 0x78, 0x79, 0x7a, 0x74, 0x75, 0x76,",
text! "\t0x77, 0x78, 0x79, 0x7a, 0x74, 0x75, 0x76, 0x77,",
text! "\t// block 0x0009",
text! "\t0x78, 0x79, 0x7a, 0x74, 0x75, 0x76, 0x77, 0x78,",
text! "\t0x79, 0x7a, 0x74, 0x75, 0x76, 0x77, 0x78, 0x79,",
text! "\t0x7a, 0x74, 0x75, 0x76, 0x77, 0x78, 0x79, 0x7a,",
text! "\t0x74, 0x75, 0x76, 0x77, 0x78, 0x79, 0x7b, 0x7c,",
text! "\t0x10, 0x10, 0x10, 0x10, 0x10, 0x10, 0x10, 0x10,",
text! "\t0x10, 0x10, 0x10, 0x10, 0x10, 0x10, 0x10, 0x10,",
text! "\t0x10, 0x10, 0x10, 0x10, 0x10, 0x10, 0x10, 0x10,",
text! "\t0x10, 0x10, 0x10, 0x10, 0x10, 0x10, 0x10, 0x10,",
text! "\t// block 0x000a",
text! "\t0x10, 0x10, 0x10, 0x10, 0x10, 0x10, 0x10, 0x10,",
text! "\t0x10, 0x10, 0x10, 0x10, 0x10, 0x10, 0x10, 0x10,",
text! "\t0x10, 0x10, 0x10, 0x10, 0x10, 0x10, 0x10, 0x10,",
text! "\t0x10, 0x10, 0x10, 0x10, 0x10, 0x10, 0x10, 0x10,",
text! "\t0x10, 0x10, 0x10, 0x10, 0x10, 0x10, 0x10, 0x10,",
text! "\t0x10, 0x10, 0x10, 0x10, 0x7d, 0x10, 0x10, 0x10,",
text! "\t0x10, 0x10, 0x10, 0x10, 0x10, 0x10, 0x10, 0x10,",
text! "\t0x7e, 0x10, 0x10, 0x01, 0x10, 0x10, 0x66, 0x7f,",
text! "\t// block 0x000b",
text! "\t0x02, 0x02, 0x02, 0x02, 0x02, 0x02, 0x02, 0x02,",
text! "\t0x02, 0x02, 0x02, 0x02, 0x02, 0x02, 0x02, 0x02,",
text! "\t0x02, 0x02, 0x02, 0x02, 0x02, 0x02, 0x02, 0x02,",
text! "\t0x02, 0x02, 0x02, 0x02, 0x02, 0x02, 0x02, 0x02,",
text! "\t0x02, 0x02, 0x02, 0x02, 0x02, 0x02, 0x02, 0x02,",
text! "\t0x02, 0x02, 0x02, 0x02, 0x02, 0x02, 0x02, 0x02,",
text! "\t0x02, 0x02, 0x02, 0x02, 0x02, 0x02, 0x02, 0x02,",
text! "\t0x02, 0x02, 0x02, 0x02, 0x02, 0x02, 0x02, 0x02,",
text! "\t// block 0x000c",
text! "\t0x02, 0x02, 0x02, 0x02, 0x02, 0x02, 0x02, 0x80,",
text! "\t0x02, 0x02, 0x02, 0x81, 0x02, 0x82, 0x02, 0x02,",
text! "\t0x02, 0x02, 0x02, 0x02, 0x02, 0x02, 0x02, 0x02,",
text! "\t0x02, 0x02, 0x02, 0x02, 0x02, 0x02, 0x02, 0x02,",
text! "\t0x02, 0x02, 0x02, 0x02, 0x02, 0x02, 0x02, 0x02,",
text! "\t0x83, 0x02, 0x02, 0x84, 0x02, 0x02, 0x02, 0x02,",
text! "\t0x02, 0x02, 0x02, 0x02, 0x85, 0x86, 0x02, 0x02,",
text! "\t0x02, 0x02, 0x87, 0x88, 0x02, 0x89, 0x8a, 0x02,",
text! "\t// block 0x000d",
text! "\t0x8b, 0x8c, 0x8d, 0x8e, 0x8f, 0x90, 0x91, 0x92,",
text! "\t0x93, 0x94, 0x02, 0x95, 0x96, 0x97, 0x98, 0x99,",
text! "\t0x9a, 0x9b, 0x9c, 0x9d, 0x02, 0x02, 0x9e, 0x9f,",
text! "\t0xa0, 0xa1, 0xa2, 0x02, 0xa3, 0x02, 0x02, 0x02,",
text! "\t0xa4, 0x02, 0x02, 0x02, 0xa5, 0xa6, 0x02, 0xa7,"]

/-- lines 129-192 -/
def tableText2 : List Nat := [
text! "\t0xa8, 0xa9, 0xaa, 0x02, 0x02, 0xab, 0x02, 0x02,",
text! "\t0xac, 0x02, 0xad, 0x02, 0xae, 0xaf, 0xb0, 0x02,",
text! "\t0x02, 0x02, 0x02, 0xb1, 0xb2, 0xb3, 0x02, 0x02,",
text! "\t// block 0x000e",
text! "\t0x02, 0x02, 0x02, 0x02, 0x02, 0x02, 0x02, 0x02,",
text! "\t0x02, 0x02, 0x02, 0x02, 0x02, 0x02, 0x02, 0x02,",
text! "\t0xb4, 0xb5, 0x02, 0x02, 0x02, 0x02, 0x02, 0x02,",
text! "\t0x02, 0x02, 0x02, 0x02, 0x02, 0x02, 0x02, 0x02,",
text! "\t0x02, 0x02, 0x02, 0x02, 0x02, 0x02, 0x02, 0x02,",
text! "\t0x02, 0x02, 0x02, 0x02, 0x02, 0x02, 0x02, 0x02,",
text! "\t0x02, 0x02, 0x02, 0x02, 0x02, 0x02, 0x02, 0x02,",
text! "\t0x02, 0x02, 0x02, 0x02, 0x02, 0x02, 0x02, 0x02,",
text! "\t// block 0x000f",
text! "\t0x02, 0x02, 0x02, 0x02, 0xb6, 0x02, 0x02, 0x02,",
text! "\t0x02, 0x02, 0x02, 0x02, 0x02, 0x02, 0x02, 0x02,",
text! "\t0x02, 0x02, 0x02, 0x02, 0x02, 0x02, 0x02, 0x02,",
text! "\t0x02, 0x02, 0x02, 0x02, 0x02, 0x02, 0x02, 0x02,",
text! "\t0x02, 0x02, 0x02, 0x02, 0x02, 0x02, 0x02, 0x02,",
text! "\t0x02, 0x02, 0x02, 0xb7, 0xb8, 0x02, 0x02, 0x02,",
text! "\t0x02, 0x02, 0x02, 0x02, 0x02, 0xb9, 0x02, 0x02,",
text! "\t0x02, 0x02, 0x02, 0x02, 0x02, 0xba, 0xbb, 0xbc,",
text! "\t// block 0x0010",
text! "\t0x02, 0x02, 0x02, 0x02, 0x02, 0x02, 0x02, 0x02,",
text! "\t0x02, 0x02, 0x02, 0x02, 0x02, 0x02, 0x02, 0x02,",
text! "\t0x02, 0x02, 0x02, 0x02, 0x02, 0x02, 0x02, 0x02,",
text! "\t0x02, 0x02, 0x02, 0x02, 0x02, 0x02, 0x02, 0x02,",
text! "\t0x02, 0x02, 0x02, 0x02, 0x02, 0x02, 0x02, 0x02,",
text! "\t0x02, 0x02, 0x02, 0x02, 0x02, 0x02, 0x02, 0x02,",
text! "\t0x02, 0x02, 0xbd, 0x02, 0x02, 0x02, 0x02, 0x02,",
text! "\t0x02, 0x02, 0x02, 0x02, 0x02, 0x02, 0x02, 0x02,",
text! "\t// block 0x0011",
text! "\t0x02, 0x02, 0x02, 0x02, 0x02, 0x02, 0x02, 0x02,",
text! "\t0x02, 0x02, 0x02, 0x02, 0x02, 0x02, 0x02, 0x02,",
text! "\t0x02, 0x02, 0x02, 0x02, 0x02, 0x02, 0x02, 0x02,",
text! "\t0x02, 0x02, 0x02, 0x02, 0x02, 0x02, 0x02, 0x02,",
text! "\t0x02, 0x02, 0x02, 0x02, 0x02, 0x02, 0x02, 0x02,",
text! "\t0x02, 0x02, 0x02, 0x02, 0x02, 0x02, 0x02, 0x02,",
text! "\t0x02, 0x02, 0x02, 0x02, 0x02, 0x02, 0x02, 0x02,",
text! "\t0x02, 0x02, 0x02, 0x02, 0xbe, 0xbf, 0x02, 0x02,",
text! "\t// block 0x0012",
text! "\t0x02, 0x02, 0x02, 0x02, 0x02, 0xc0, 0xc1, 0x02,",
text! "\t0x02, 0xc2, 0x02, 0x02, 0x02, 0x02, 0x02, 0x02,",
text! "\t0x02, 0x02, 0x02, 0x02, 0x02, 0x02, 0x02, 0x02,",
text! "\t0x02, 0x02, 0x02, 0x02, 0x02, 0x02, 0x02, 0x02,",
text! "\t0x02, 0x02, 0x02, 0x02, 0x02, 0x02, 0x02, 0x02,",
text! "\t0xc3, 0xc4, 0xc5, 0x02, 0x02, 0x02, 0x02, 0x02,",
text! "\t0x02, 0x02, 0x02, 0x02, 0x02, 0x02, 0x02, 0x02,",
text! "\t0x02, 0x02, 0x02, 0x02, 0x02, 0x02, 0x02, 0x02,",
text! "\t// block 0x0013",
text! "\t0xc6, 0x02, 0xc7, 0x02, 0xb8, 0x02, 0x02, 0x02,",
text! "\t0x02, 0x02, 0xc8, 0xc9, 0x02, 0x02, 0x02, 0x02,",
text! "\t0x02, 0x02, 0x02, 0xc9, 0x02, 0x02, 0x02, 0xca,",
text! "\t0x02, 0x02, 0x02, 0xcb, 0x02, 0x02, 0x02, 0x02,",
text! "\t0x02, 0x02, 0x02, 0xcc, 0x02, 0xcd, 0x02, 0x02,",
text! "\t0x02, 0x02, 0x02, 0x02, 0x02, 0x02, 0x02, 0x02,",
text! "\t0x02, 0x02, 0x02, 0x02, 0x02, 0x02, 0x02, 0x02,",
text! "\t0x02, 0x02, 0x02, 0x02, 0x02, 0x02, 0x02, 0x02,",
text! "\t// block 0x0014",
text! "\t0xce, 0x02, 0xcf, 0xd0, 0x02, 0xd1, 0xd2, 0xd3,",
text! "\t0xd4, 0xd5, 0xd6, 0xd6, 0xd7, 0xd6, 0xd8, 0xd9,",
text! "\t0xd6, 0xd6, 0xd6, 0xda, 0xdb, 0xdc, 0xdd, 0xde,",
text! "\t0xd6, 0xdf, 0xd6, 0xe0, 0x02, 0x02, 0x02, 0xe1,",
text! "\t0xe2, 0xe3, 0xe4, 0xe5, 0xe6, 0xe7, 0xd6, 0xd6,",
text! "\t0x02, 0xe8, 0xd6, 0xd6, 0x02, 0x02, 0x02, 0x02,"]

/-- lines 193-256 -/
def tableText3 : List Nat := [
text! "\t0xd6, 0xd6, 0xd6, 0xd6, 0xd6, 0xd6, 0xd6, 0xd6,",
text! "\t0xd6, 0xd6, 0xd6, 0xd6, 0xd6, 0xd6, 0xd6, 0xdb,",
text! "\t// block 0x0015",
text! "\t0x0b, 0x0b, 0x0b, 0x0b, 0x0b, 0x0b, 0x0b, 0x0b,",
text! "\t0x0b, 0x0b, 0x0b, 0x0b, 0x0b, 0x0b, 0x0b, 0x0b,",
text! "\t0x0c, 0x0d, 0x0b, 0x0e, 0x0b, 0x0b, 0x0f, 0x0b,",
text! "\t0x0b, 0x0b, 0x0b, 0x10, 0x11, 0x12, 0x13, 0x14,",
text! "\t0x0b, 0x0b, 0x0b, 0x0b, 0x0b, 0x0b, 0x0b, 0x0b,",
text! "\t0x0b, 0x0b, 0x0b, 0x0b, 0x0b, 0x0b, 0x0b, 0x0b,",
text! "\t0x0b, 0x0b, 0x0b, 0x0b, 0x0b, 0x0b, 0x0b, 0x0b,",
text! "\t0x0b, 0x0b, 0x0b, 0x0b, 0x0b, 0x0b, 0x0b, 0x0b,",
text! "\t// block 0x0016",
text! "\t0x0b, 0x0b, 0x0b, 0x0b, 0x0b, 0x0b, 0x0b, 0x0b,",
text! "\t0x0b, 0x0b, 0x0b, 0x0b, 0x0b, 0x0b, 0x0b, 0x0b,",
text! "\t0x0b, 0x0b, 0x0b, 0x0b, 0x0b, 0x0b, 0x0b, 0x0b,",
text! "\t0x0b, 0x0b, 0x0b, 0x0b, 0x0b, 0x0b, 0x0b, 0x0b,",
text! "\t0x0b, 0x0b, 0x0b, 0x0b, 0x0b, 0x0b, 0x0b, 0x0b,",
text! "\t0x0b, 0x0b, 0x0b, 0x0b, 0x0b, 0x0b, 0x0b, 0x0b,",
text! "\t0x0b, 0x0b, 0x0b, 0x0b, 0x0b, 0x0b, 0x0b, 0x0b,",
text! "\t0x0b, 0x0b, 0x0b, 0x0b, 0x0b, 0x0b, 0x0b, 0x0b,",
text! "\t// block 0x0017",
text! "\t0xe9, 0x04, 0xea, 0xea, 0x04, 0x04, 0x04, 0xeb,",
text! "\t0xea, 0xea, 0xea, 0xea, 0xea, 0xea, 0xea, 0xea,",
text! "\t0xea, 0xea, 0xea, 0xea, 0xea, 0xea, 0xea, 0xea,",
text! "\t0xea, 0xea, 0xea, 0xea, 0xea, 0xea, 0xea, 0xea,",
text! "\t0xea, 0xea, 0xea, 0xea, 0xea, 0xea, 0xea, 0xea,",
text! "\t0xea, 0xea, 0xea, 0xea, 0xea, 0xea, 0xea, 0xea,",
text! "\t0xea, 0xea, 0xea, 0xea, 0xea, 0xea, 0xea, 0xea,",
text! "\t0xea, 0xea, 0xea, 0xea, 0xea, 0xea, 0xea, 0xea,",
text! "\t// block 0x0018",
text! "\t0x0b, 0x0b, 0x0b, 0x0b, 0x0b, 0x0b, 0x0b, 0x0b,",
text! "\t0x0b, 0x0b, 0x0b, 0x0b, 0x0b, 0x0b, 0x0b, 0x0b,",
text! "\t0x0b, 0x0b, 0x0b, 0x0b, 0x0b, 0x0b, 0x0b, 0x0b,",
text! "\t0x0b, 0x0b, 0x0b, 0x0b, 0x0b, 0x0b, 0x0b, 0x0b,",
text! "\t0x17, 0x0b, 0x0b, 0x0b, 0x0b, 0x0b, 0x0b, 0x0b,",
text! "\t0x0b, 0x0b, 0x0b, 0x0b, 0x0b, 0x0b, 0x0b, 0x0b,",
text! "\t0x0b, 0x0b, 0x0b, 0x0b, 0x0b, 0x0b, 0x0b, 0x0b,",
text! "\t0x0b, 0x0b, 0x0b, 0x0b, 0x0b, 0x0b, 0x0b, 0x0b,",
text! "}",
text! "var lookupProps = [...]CharProperties{",
text! "\t// block 0x0000",
text! "\t0x02, 0x02, 0x02, 0x02, 0x02, 0x02, 0x02, 0x02,",
text! "\t0x02, 0x02, 0x06, 0x02, 0x02, 0x01, 0x02, 0x02,",
text! "\t0x02, 0x02, 0x02, 0x02, 0x02, 0x02, 0x02, 0x02,",
text! "\t0x02, 0x02, 0x02, 0x02, 0x02, 0x02, 0x02, 0x02,",
text! "\t0x00, 0x00, 0x00, 0x00, 0x00, 0x00, 0x00, 0x00,",
text! "\t0x00, 0x00, 0x00, 0x00, 0x00, 0x00, 0x00, 0x00,",
text! "\t0x00, 0x00, 0x00, 0x00, 0x00, 0x00, 0x00, 0x00,",
text! "\t0x00, 0x00, 0x00, 0x00, 0x00, 0x00, 0x00, 0x00,",
text! "\t// block 0x0001",
text! "\t0x00, 0x00, 0x00, 0x00, 0x00, 0x00, 0x00, 0x00,",
text! "\t0x00, 0x00, 0x00, 0x00, 0x00, 0x00, 0x00, 0x00,",
text! "\t0x00, 0x00, 0x00, 0x00, 0x00, 0x00, 0x00, 0x00,",
text! "\t0x00, 0x00, 0x00, 0x00, 0x00, 0x00, 0x00, 0x00,",
text! "\t0x00, 0x00, 0x00, 0x00, 0x00, 0x00, 0x00, 0x00,",
text! "\t0x00, 0x00, 0x00, 0x00, 0x00, 0x00, 0x00, 0x00,",
text! "\t0x00, 0x00, 0x00, 0x00, 0x00, 0x00, 0x00, 0x00,",
text! "\t0x00, 0x00, 0x00, 0x00, 0x00, 0x00, 0x00, 0x02,",
text! "\t// block 0x0002",
text! "\t0x00, 0x00, 0x00, 0x00, 0x00, 0x00, 0x00, 0x00,",
text! "\t0x00, 0x00, 0x00, 0x00, 0x00, 0x00, 0x00, 0x00,",
text! "\t0x00, 0x00, 0x00, 0x00, 0x00, 0x00, 0x00, 0x00,",
text! "\t0x00, 0x00, 0x00, 0x00, 0x00, 0x00, 0x00, 0x00,",
text! "\t0x00, 0x00, 0x00, 0x00, 0x00, 0x00, 0x00, 0x00,"]

/-- lines 257-320 -/
def tableText4 : List Nat := [
text! "\t0x00, 0x00, 0x00, 0x00, 0x00, 0x00, 0x00, 0x00,",
text! "\t0x00, 0x00, 0x00, 0x00, 0x00, 0x00, 0x00, 0x00,",
text! "\t0x00, 0x00, 0x00, 0x00, 0x00, 0x00, 0x00, 0x00,",
text! "\t// block 0x0003",
text! "\t0x02, 0x02, 0x02, 0x02, 0x02, 0x02, 0x02, 0x02,",
text! "\t0x02, 0x02, 0x02, 0x02, 0x02, 0x02, 0x02, 0x02,",
text! "\t0x02, 0x02, 0x02, 0x02, 0x02, 0x02, 0x02, 0x02,",
text! "\t0x02, 0x02, 0x02, 0x02, 0x02, 0x02, 0x02, 0x02,",
text! "\t0x00, 0x00, 0x00, 0x00, 0x00, 0x00, 0x00, 0x00,",
text! "\t0x00, 0x04, 0x00, 0x00, 0x00, 0x02, 0x04, 0x00,",
text! "\t0x00, 0x00, 0x00, 0x00, 0x00, 0x00, 0x00, 0x00,",
text! "\t0x00, 0x00, 0x00, 0x00, 0x00, 0x00, 0x00, 0x00,",
text! "\t// block 0x0004",
text! "\t0x23, 0x23, 0x23, 0x23, 0x23, 0x23, 0x23, 0x23,",
text! "\t0x23, 0x23, 0x23, 0x23, 0x23, 0x23, 0x23, 0x23,",
text! "\t0x23, 0x23, 0x23, 0x23, 0x23, 0x23, 0x23, 0x23,",
text! "\t0x23, 0x23, 0x23, 0x23, 0x23, 0x23, 0x23, 0x23,",
text! "\t0x23, 0x23, 0x23, 0x23, 0x23, 0x23, 0x23, 0x23,",
text! "\t0x23, 0x23, 0x23, 0x23, 0x23, 0x23, 0x23, 0x23,",
text! "\t0x23, 0x23, 0x23, 0x23, 0x23, 0x23, 0x23, 0x23,",
text! "\t0x23, 0x23, 0x23, 0x23, 0x23, 0x23, 0x23, 0x23,",
text! "\t// block 0x0005",
text! "\t0x23, 0x23, 0x23, 0x23, 0x23, 0x23, 0x23, 0x23,",
text! "\t0x23, 0x23, 0x23, 0x23, 0x23, 0x23, 0x23, 0x23,",
text! "\t0x23, 0x23, 0x23, 0x23, 0x23, 0x23, 0x23, 0x23,",
text! "\t0x23, 0x23, 0x23, 0x23, 0x23, 0x23, 0x23, 0x23,",
text! "\t0x23, 0x23, 0x23, 0x23, 0x23, 0x23, 0x23, 0x23,",
text! "\t0x23, 0x23, 0x23, 0x23, 0x23, 0x23, 0x23, 0x23,",
text! "\t0x00, 0x00, 0x00, 0x00, 0x00, 0x00, 0x00, 0x00,",
text! "\t0x00, 0x00, 0x00, 0x00, 0x00, 0x00, 0x00, 0x00,",
text! "\t// block 0x0006",
text! "\t0x00, 0x00, 0x00, 0x23, 0x23, 0x23, 0x23, 0x23,",
text! "\t0x23, 0x23, 0x00, 0x00, 0x00, 0x00, 0x00, 0x00,",
text! "\t0x00, 0x00, 0x00, 0x00, 0x00, 0x00, 0x00, 0x00,",
text! "\t0x00, 0x00, 0x00, 0x00, 0x00, 0x00, 0x00, 0x00,",
text! "\t0x00, 0x00, 0x00, 0x00, 0x00, 0x00, 0x00, 0x00,",
text! "\t0x00, 0x00, 0x00, 0x00, 0x00, 0x00, 0x00, 0x00,",
text! "\t0x00, 0x00, 0x00, 0x00, 0x00, 0x00, 0x00, 0x00,",
text! "\t0x00, 0x00, 0x00, 0x00, 0x00, 0x00, 0x00, 0x00,",
text! "\t// block 0x0007",
text! "\t0x00, 0x00, 0x00, 0x00, 0x00, 0x00, 0x00, 0x00,",
text! "\t0x00, 0x00, 0x00, 0x00, 0x00, 0x00, 0x00, 0x00,",
text! "\t0x00, 0x23, 0x23, 0x23, 0x23, 0x23, 0x23, 0x23,",
text! "\t0x23, 0x23, 0x23, 0x23, 0x23, 0x23, 0x23, 0x23,",
text! "\t0x23, 0x23, 0x23, 0x23, 0x23, 0x23, 0x23, 0x23,",
text! "\t0x23, 0x23, 0x23, 0x23, 0x23, 0x23, 0x23, 0x23,",
text! "\t0x23, 0x23, 0x23, 0x23, 0x23, 0x23, 0x23, 0x23,",
text! "\t0x23, 0x23, 0x23, 0x23, 0x23, 0x23, 0x00, 0x23,",
text! "\t// block 0x0008",
text! "\t0x00, 0x23, 0x23, 0x00, 0x23, 0x23, 0x00, 0x23,",
text! "\t0x00, 0x00, 0x00, 0x00, 0x00, 0x00, 0x00, 0x00,",
text! "\t0x00, 0x00, 0x00, 0x00, 0x00, 0x00, 0x00, 0x00,",
text! "\t0x00, 0x00, 0x00, 0x00, 0x00, 0x00, 0x00, 0x00,",
text! "\t0x00, 0x00, 0x00, 0x00, 0x00, 0x00, 0x00, 0x00,",
text! "\t0x00, 0x00, 0x00, 0x00, 0x00, 0x00, 0x00, 0x00,",
text! "\t0x00, 0x00, 0x00, 0x00, 0x00, 0x00, 0x00, 0x00,",
text! "\t0x00, 0x00, 0x00, 0x00, 0x00, 0x00, 0x00, 0x00,",
text! "\t// block 0x0009",
text! "\t0x09, 0x09, 0x09, 0x09, 0x09, 0x09, 0x00, 0x00,",
text! "\t0x00, 0x00, 0x00, 0x00, 0x00, 0x00, 0x00, 0x00,",
text! "\t0x23, 0x23, 0x23, 0x23, 0x23, 0x23, 0x23, 0x23,",
text! "\t0x23, 0x23, 0x23, 0x00, 0x02, 0x00, 0x00, 0x00,",
text! "\t0x00, 0x00, 0x00, 0x00, 0x00, 0x00, 0x00, 0x00,",
text! "\t0x00, 0x00, 0x00, 0x00, 0x00, 0x00, 0x00, 0x00,"]

/-- lines 321-384 -/
def tableText5 : List Nat := [
text! "\t0x00, 0x00, 0x00, 0x00, 0x00, 0x00, 0x00, 0x00,",
text! "\t0x00, 0x00, 0x00, 0x00, 0x00, 0x00, 0x00, 0x00,",
text! "\t// block 0x000a",
text! "\t0x00, 0x00, 0x00, 0x00, 0x00, 0x00, 0x00, 0x00,",
text! "\t0x00, 0x00, 0x00, 0x23, 0x23, 0x23, 0x23, 0x23,",
text! "\t0x23, 0x23, 0x23, 0x23, 0x23, 0x23, 0x23, 0x23,",
text! "\t0x23, 0x23, 0x23, 0x23, 0x23, 0x23, 0x23, 0x23,",
text! "\t0x00, 0x00, 0x00, 0x00, 0x00, 0x00, 0x00, 0x00,",
text! "\t0x00, 0x00, 0x00, 0x00, 0x00, 0x00, 0x00, 0x00,",
text! "\t0x23, 0x00, 0x00, 0x00, 0x00, 0x00, 0x00, 0x00,",
text! "\t0x00, 0x00, 0x00, 0x00, 0x00, 0x00, 0x00, 0x00,",
text! "\t// block 0x000b",
text! "\t0x00, 0x00, 0x00, 0x00, 0x00, 0x00, 0x00, 0x00,",
text! "\t0x00, 0x00, 0x00, 0x00, 0x00, 0x00, 0x00, 0x00,",
text! "\t0x00, 0x00, 0x00, 0x00, 0x00, 0x00, 0x23, 0x23,",
text! "\t0x23, 0x23, 0x23, 0x23, 0x23, 0x09, 0x00, 0x23,",
text! "\t0x23, 0x23, 0x23, 0x23, 0x23, 0x00, 0x00, 0x23,",
text! "\t0x23, 0x00, 0x23, 0x23, 0x23, 0x23, 0x00, 0x00,",
text! "\t0x00, 0x00, 0x00, 0x00, 0x00, 0x00, 0x00, 0x00,",
text! "\t0x00, 0x00, 0x00, 0x00, 0x00, 0x00, 0x00, 0x00,",
text! "\t// block 0x000c",
text! "\t0x00, 0x00, 0x00, 0x00, 0x00, 0x00, 0x00, 0x00,",
text! "\t0x00, 0x00, 0x00, 0x00, 0x00, 0x00, 0x00, 0x09,",
text! "\t0x00, 0x23, 0x00, 0x00, 0x00, 0x00, 0x00, 0x00,",
text! "\t0x00, 0x00, 0x00, 0x00, 0x00, 0x00, 0x00, 0x00,",
text! "\t0x00, 0x00, 0x00, 0x00, 0x00, 0x00, 0x00, 0x00,",
text! "\t0x00, 0x00, 0x00, 0x00, 0x00, 0x00, 0x00, 0x00,",
text! "\t0x23, 0x23, 0x23, 0x23, 0x23, 0x23, 0x23, 0x23,",
text! "\t0x23, 0x23, 0x23, 0x23, 0x23, 0x23, 0x23, 0x23,",
text! "\t// block 0x000d",
text! "\t0x23, 0x23, 0x23, 0x23, 0x23, 0x23, 0x23, 0x23,",
text! "\t0x23, 0x23, 0x23, 0x00, 0x00, 0x00, 0x00, 0x00,",
text! "\t0x00, 0x00, 0x00, 0x00, 0x00, 0x00, 0x00, 0x00,",
text! "\t0x00, 0x00, 0x00, 0x00, 0x00, 0x00, 0x00, 0x00,",
text! "\t0x00, 0x00, 0x00, 0x00, 0x00, 0x00, 0x00, 0x00,",
text! "\t0x00, 0x00, 0x00, 0x00, 0x00, 0x00, 0x00, 0x00,",
text! "\t0x00, 0x00, 0x00, 0x00, 0x00, 0x00, 0x00, 0x00,",
text! "\t0x00, 0x00, 0x00, 0x00, 0x00, 0x00, 0x00, 0x00,",
text! "\t// block 0x000e",
text! "\t0x00, 0x00, 0x00, 0x00, 0x00, 0x00, 0x00, 0x00,",
text! "\t0x00, 0x00, 0x00, 0x00, 0x00, 0x00, 0x00, 0x00,",
text! "\t0x00, 0x00, 0x00, 0x00, 0x00, 0x00, 0x00, 0x00,",
text! "\t0x00, 0x00, 0x00, 0x00, 0x00, 0x00, 0x00, 0x00,",
text! "\t0x00, 0x00, 0x00, 0x00, 0x00, 0x00, 0x23, 0x23,",
text! "\t0x23, 0x23, 0x23, 0x23, 0x23, 0x23, 0x23, 0x23,",
text! "\t0x23, 0x00, 0x00, 0x00, 0x00, 0x00, 0x00, 0x00,",
text! "\t0x00, 0x00, 0x00, 0x00, 0x00, 0x00, 0x00, 0x00,",
text! "\t// block 0x000f",
text! "\t0x00, 0x00, 0x00, 0x00, 0x00, 0x00, 0x00, 0x00,",
text! "\t0x00, 0x00, 0x00, 0x00, 0x00, 0x00, 0x00, 0x00,",
text! "\t0x00, 0x00, 0x00, 0x00, 0x00, 0x00, 0x00, 0x00,",
text! "\t0x00, 0x00, 0x00, 0x00, 0x00, 0x00, 0x00, 0x00,",
text! "\t0x00, 0x00, 0x00, 0x00, 0x00, 0x00, 0x00, 0x00,",
text! "\t0x00, 0x00, 0x00, 0x23, 0x23, 0x23, 0x23, 0x23,",
text! "\t0x23, 0x23, 0x23, 0x23, 0x00, 0x00, 0x00, 0x00,",
text! "\t0x00, 0x00, 0x00, 0x00, 0x00, 0x23, 0x00, 0x00,",
text! "\t// block 0x0010",
text! "\t0x00, 0x00, 0x00, 0x00, 0x00, 0x00, 0x00, 0x00,",
text! "\t0x00, 0x00, 0x00, 0x00, 0x00, 0x00, 0x00, 0x00,",
text! "\t0x00, 0x00, 0x00, 0x00, 0x00, 0x00, 0x00, 0x00,",
text! "\t0x00, 0x00, 0x00, 0x00, 0x00, 0x00, 0x00, 0x00,",
text! "\t0x00, 0x00, 0x00, 0x00, 0x00, 0x00, 0x00, 0x00,",
text! "\t0x00, 0x00, 0x00, 0x00, 0x00, 0x00, 0x00, 0x00,",
text! "\t0x00, 0x00, 0x00, 0x00, 0x00, 0x00, 0x00, 0x00,"]

/-- lines 385-448 -/
def tableText6 : List Nat := [
text! "\t0x00, 0x00, 0x00, 0x00, 0x00, 0x00, 0x00, 0x00,",
text! "\t// block 0x0011",
text! "\t0x00, 0x00, 0x00, 0x00, 0x00, 0x00, 0x00, 0x00,",
text! "\t0x00, 0x00, 0x00, 0x00, 0x00, 0x00, 0x00, 0x00,",
text! "\t0x00, 0x00, 0x00, 0x00, 0x00, 0x00, 0x23, 0x23,",
text! "\t0x23, 0x23, 0x00, 0x23, 0x23, 0x23, 0x23, 0x23,",
text! "\t0x23, 0x23, 0x23, 0x23, 0x00, 0x23, 0x23, 0x23,",
text! "\t0x00, 0x23, 0x23, 0x23, 0x23, 0x23, 0x00, 0x00,",
text! "\t0x00, 0x00, 0x00, 0x00, 0x00, 0x00, 0x00, 0x00,",
text! "\t0x00, 0x00, 0x00, 0x00, 0x00, 0x00, 0x00, 0x00,",
text! "\t// block 0x0012",
text! "\t0x00, 0x00, 0x00, 0x00, 0x00, 0x00, 0x00, 0x00,",
text! "\t0x00, 0x00, 0x00, 0x00, 0x00, 0x00, 0x00, 0x00,",
text! "\t0x00, 0x00, 0x00, 0x00, 0x00, 0x00, 0x00, 0x00,",
text! "\t0x00, 0x23, 0x23, 0x23, 0x00, 0x00, 0x00, 0x00,",
text! "\t0x00, 0x00, 0x00, 0x00, 0x00, 0x00, 0x00, 0x00,",
text! "\t0x00, 0x00, 0x00, 0x00, 0x00, 0x00, 0x00, 0x00,",
text! "\t0x00, 0x00, 0x00, 0x00, 0x00, 0x00, 0x00, 0x00,",
text! "\t0x00, 0x00, 0x00, 0x00, 0x00, 0x00, 0x00, 0x00,",
text! "\t// block 0x0013",
text! "\t0x00, 0x00, 0x00, 0x00, 0x00, 0x00, 0x00, 0x00,",
text! "\t0x00, 0x00, 0x00, 0x00, 0x00, 0x00, 0x00, 0x00,",
text! "\t0x09, 0x09, 0x00, 0x00, 0x00, 0x00, 0x00, 0x23,",
text! "\t0x23, 0x23, 0x23, 0x23, 0x23, 0x23, 0x23, 0x23,",
text! "\t0x00, 0x00, 0x00, 0x00, 0x00, 0x00, 0x00, 0x00,",
text! "\t0x00, 0x00, 0x00, 0x00, 0x00, 0x00, 0x00, 0x00,",
text! "\t0x00, 0x00, 0x00, 0x00, 0x00, 0x00, 0x00, 0x00,",
text! "\t0x00, 0x00, 0x00, 0x00, 0x00, 0x00, 0x00, 0x00,",
text! "\t// block 0x0014",
text! "\t0x00, 0x00, 0x00, 0x00, 0x00, 0x00, 0x00, 0x00,",
text! "\t0x00, 0x00, 0x23, 0x23, 0x23, 0x23, 0x23, 0x23,",
text! "\t0x23, 0x23, 0x23, 0x23, 0x23, 0x23, 0x23, 0x23,",
text! "\t0x23, 0x23, 0x23, 0x23, 0x23, 0x23, 0x23, 0x23,",
text! "\t0x23, 0x23, 0x09, 0x23, 0x23, 0x23, 0x23, 0x23,",
text! "\t0x23, 0x23, 0x23, 0x23, 0x23, 0x23, 0x23, 0x23,",
text! "\t0x23, 0x23, 0x23, 0x23, 0x23, 0x23, 0x23, 0x23,",
text! "\t0x23, 0x23, 0x23, 0x23, 0x23, 0x23, 0x23, 0x23,",
text! "\t// block 0x0015",
text! "\t0x23, 0x23, 0x23, 0x0b, 0x00, 0x00, 0x00, 0x00,",
text! "\t0x00, 0x00, 0x00, 0x00, 0x00, 0x00, 0x00, 0x00,",
text! "\t0x00, 0x00, 0x00, 0x00, 0x00, 0x10, 0x10, 0x10,",
text! "\t0x10, 0x10, 0x10, 0x10, 0x10, 0x10, 0x10, 0x10,",
text! "\t0x10, 0x10, 0x10, 0x10, 0x10, 0x10, 0x10, 0x10,",
text! "\t0x10, 0x10, 0x10, 0x10, 0x10, 0x10, 0x10, 0x10,",
text! "\t0x10, 0x10, 0x10, 0x10, 0x10, 0x10, 0x10, 0x10,",
text! "\t0x10, 0x10, 0x23, 0x0b, 0x23, 0x00, 0x0b, 0x0b,",
text! "\t// block 0x0016",
text! "\t0x0b, 0x23, 0x23, 0x23, 0x23, 0x23, 0x23, 0x23,",
text! "\t0x23, 0x0b, 0x0b, 0x0b, 0x0b, 0x33, 0x0b, 0x0b,",
text! "\t0x00, 0x23, 0x23, 0x23, 0x23, 0x23, 0x23, 0x23,",
text! "\t0x10, 0x10, 0x10, 0x10, 0x10, 0x10, 0x10, 0x10,",
text! "\t0x00, 0x00, 0x23, 0x23, 0x00, 0x00, 0x00, 0x00,",
text! "\t0x00, 0x00, 0x00, 0x00, 0x00, 0x00, 0x00, 0x00,",
text! "\t0x00, 0x00, 0x00, 0x00, 0x00, 0x00, 0x00, 0x00,",
text! "\t0x10, 0x10, 0x10, 0x10, 0x10, 0x10, 0x10, 0x10,",
text! "\t// block 0x0017",
text! "\t0x00, 0x23, 0x0b, 0x0b, 0x00, 0x00, 0x00, 0x00,",
text! "\t0x00, 0x00, 0x00, 0x00, 0x00, 0x00, 0x00, 0x00,",
text! "\t0x00, 0x00, 0x00, 0x00, 0x00, 0x10, 0x10, 0x10,",
text! "\t0x10, 0x10, 0x10, 0x10, 0x10, 0x10, 0x10, 0x10,",
text! "\t0x10, 0x10, 0x10, 0x10, 0x10, 0x10, 0x10, 0x10,",
text! "\t0x10, 0x00, 0x10, 0x10, 0x10, 0x10, 0x10, 0x10,",
text! "\t0x10, 0x00, 0x10, 0x00, 0x00, 0x00, 0x10, 0x10,",
text! "\t0x10, 0x10, 0x00, 0x00, 0x23, 0x00, 0x23, 0x0b,"]

/-- lines 449-512 -/
def tableText7 : List Nat := [
text! "\t// block 0x0018",
text! "\t0x0b, 0x23, 0x23, 0x23, 0x23, 0x00, 0x00, 0x0b,",
text! "\t0x0b, 0x00, 0x00, 0x0b, 0x0b, 0x33, 0x00, 0x00,",
text! "\t0x00, 0x00, 0x00, 0x00, 0x00, 0x00, 0x00, 0x23,",
text! "\t0x00, 0x00, 0x00, 0x00, 0x10, 0x10, 0x00, 0x10,",
text! "\t0x00, 0x00, 0x23, 0x23, 0x00, 0x00, 0x00, 0x00,",
text! "\t0x00, 0x00, 0x00, 0x00, 0x00, 0x00, 0x00, 0x00,",
text! "\t0x10, 0x10, 0x00, 0x00, 0x00, 0x00, 0x00, 0x00,",
text! "\t0x00, 0x00, 0x00, 0x00, 0x00, 0x00, 0x23, 0x00,",
text! "\t// block 0x0019",
text! "\t0x00, 0x23, 0x23, 0x0b, 0x00, 0x00, 0x00, 0x00,",
text! "\t0x00, 0x00, 0x00, 0x00, 0x00, 0x00, 0x00, 0x00,",
text! "\t0x00, 0x00, 0x00, 0x00, 0x00, 0x00, 0x00, 0x00,",
text! "\t0x00, 0x00, 0x00, 0x00, 0x00, 0x00, 0x00, 0x00,",
text! "\t0x00, 0x00, 0x00, 0x00, 0x00, 0x00, 0x00, 0x00,",
text! "\t0x00, 0x00, 0x00, 0x00, 0x00, 0x00, 0x00, 0x00,",
text! "\t0x00, 0x00, 0x00, 0x00, 0x00, 0x00, 0x00, 0x00,",
text! "\t0x00, 0x00, 0x00, 0x00, 0x23, 0x00, 0x0b, 0x0b,",
text! "\t// block 0x001a",
text! "\t0x0b, 0x23, 0x23, 0x00, 0x00, 0x00, 0x00, 0x23,",
text! "\t0x23, 0x00, 0x00, 0x23, 0x23, 0x23, 0x00, 0x00,",
text! "\t0x00, 0x23, 0x00, 0x00, 0x00, 0x00, 0x00, 0x00,",
text! "\t0x00, 0x00, 0x00, 0x00, 0x00, 0x00, 0x00, 0x00,",
text! "\t0x00, 0x00, 0x00, 0x00, 0x00, 0x00, 0x00, 0x00,",
text! "\t0x00, 0x00, 0x00, 0x00, 0x00, 0x00, 0x00, 0x00,",
text! "\t0x23, 0x23, 0x00, 0x00, 0x00, 0x23, 0x00, 0x00,",
text! "\t0x00, 0x00, 0x00, 0x00, 0x00, 0x00, 0x00, 0x00,",
text! "\t// block 0x001b",
text! "\t0x00, 0x23, 0x23, 0x0b, 0x00, 0x00, 0x00, 0x00,",
text! "\t0x00, 0x00, 0x00, 0x00, 0x00, 0x00, 0x00, 0x00,",
text! "\t0x00, 0x00, 0x00, 0x00, 0x00, 0x10, 0x10, 0x10,",
text! "\t0x10, 0x10, 0x10, 0x10, 0x10, 0x10, 0x10, 0x10,",
text! "\t0x10, 0x10, 0x10, 0x10, 0x10, 0x10, 0x10, 0x10,",
text! "\t0x10, 0x00, 0x10, 0x10, 0x10, 0x10, 0x10, 0x10,",
text! "\t0x10, 0x00, 0x10, 0x10, 0x00, 0x10, 0x10, 0x10,",
text! "\t0x10, 0x10, 0x00, 0x00, 0x23, 0x00, 0x0b, 0x0b,",
text! "\t// block 0x001c",
text! "\t0x0b, 0x23, 0x23, 0x23, 0x23, 0x23, 0x00, 0x23,",
text! "\t0x23, 0x0b, 0x00, 0x0b, 0x0b, 0x33, 0x00, 0x00,",
text! "\t0x00, 0x00, 0x00, 0x00, 0x00, 0x00, 0x00, 0x00,",
text! "\t0x00, 0x00, 0x00, 0x00, 0x00, 0x00, 0x00, 0x00,",
text! "\t0x00, 0x00, 0x23, 0x23, 0x00, 0x00, 0x00, 0x00,",
text! "\t0x00, 0x00, 0x00, 0x00, 0x00, 0x00, 0x00, 0x00,",
text! "\t0x00, 0x00, 0x00, 0x00, 0x00, 0x00, 0x00, 0x00,",
text! "\t0x00, 0x10, 0x23, 0x23, 0x23, 0x23, 0x23, 0x23,",
text! "\t// block 0x001d",
text! "\t0x00, 0x23, 0x0b, 0x0b, 0x00, 0x00, 0x00, 0x00,",
text! "\t0x00, 0x00, 0x00, 0x00, 0x00, 0x00, 0x00, 0x00,",
text! "\t0x00, 0x00, 0x00, 0x00, 0x00, 0x10, 0x10, 0x10,",
text! "\t0x10, 0x10, 0x10, 0x10, 0x10, 0x10, 0x10, 0x10,",
text! "\t0x10, 0x10, 0x10, 0x10, 0x10, 0x10, 0x10, 0x10,",
text! "\t0x10, 0x00, 0x10, 0x10, 0x10, 0x10, 0x10, 0x10,",
text! "\t0x10, 0x00, 0x10, 0x10, 0x00, 0x10, 0x10, 0x10,",
text! "\t0x10, 0x10, 0x00, 0x00, 0x23, 0x00, 0x23, 0x23,",
text! "\t// block 0x001e",
text! "\t0x0b, 0x23, 0x23, 0x23, 0x23, 0x00, 0x00, 0x0b,",
text! "\t0x0b, 0x00, 0x00, 0x0b, 0x0b, 0x33, 0x00, 0x00,",
text! "\t0x00, 0x00, 0x00, 0x00, 0x00, 0x23, 0x23, 0x23,",
text! "\t0x00, 0x00, 0x00, 0x00, 0x10, 0x10, 0x00, 0x10,",
text! "\t0x00, 0x00, 0x23, 0x23, 0x00, 0x00, 0x00, 0x00,",
text! "\t0x00, 0x00, 0x00, 0x00, 0x00, 0x00, 0x00, 0x00,",
text! "\t0x00, 0x10, 0x00, 0x00, 0x00, 0x00, 0x00, 0x00,",
text! "\t0x00, 0x00, 0x00, 0x00, 0x00, 0x00, 0x00, 0x00,",
text! "\t// block 0x001f"]

/-- lines 513-576 -/
def tableText8 : List Nat := [
text! "\t0x00, 0x00, 0x23, 0x00, 0x00, 0x00, 0x00, 0x00,",
text! "\t0x00, 0x00, 0x00, 0x00, 0x00, 0x00, 0x00, 0x00,",
text! "\t0x00, 0x00, 0x00, 0x00, 0x00, 0x00, 0x00, 0x00,",
text! "\t0x00, 0x00, 0x00, 0x00, 0x00, 0x00, 0x00, 0x00,",
text! "\t0x00, 0x00, 0x00, 0x00, 0x00, 0x00, 0x00, 0x00,",
text! "\t0x00, 0x00, 0x00, 0x00, 0x00, 0x00, 0x00, 0x00,",
text! "\t0x00, 0x00, 0x00, 0x00, 0x00, 0x00, 0x00, 0x00,",
text! "\t0x00, 0x00, 0x00, 0x00, 0x00, 0x00, 0x23, 0x0b,",
text! "\t// block 0x0020",
text! "\t0x23, 0x0b, 0x0b, 0x00, 0x00, 0x00, 0x0b, 0x0b,",
text! "\t0x0b, 0x00, 0x0b, 0x0b, 0x0b, 0x23, 0x00, 0x00,",
text! "\t0x00, 0x00, 0x00, 0x00, 0x00, 0x00, 0x00, 0x23,",
text! "\t0x00, 0x00, 0x00, 0x00, 0x00, 0x00, 0x00, 0x00,",
text! "\t0x00, 0x00, 0x00, 0x00, 0x00, 0x00, 0x00, 0x00,",
text! "\t0x00, 0x00, 0x00, 0x00, 0x00, 0x00, 0x00, 0x00,",
text! "\t0x00, 0x00, 0x00, 0x00, 0x00, 0x00, 0x00, 0x00,",
text! "\t0x00, 0x00, 0x00, 0x00, 0x00, 0x00, 0x00, 0x00,",
text! "\t// block 0x0021",
text! "\t0x23, 0x0b, 0x0b, 0x0b, 0x23, 0x00, 0x00, 0x00,",
text! "\t0x00, 0x00, 0x00, 0x00, 0x00, 0x00, 0x00, 0x00,",
text! "\t0x00, 0x00, 0x00, 0x00, 0x00, 0x10, 0x10, 0x10,",
text! "\t0x10, 0x10, 0x10, 0x10, 0x10, 0x10, 0x10, 0x10,",
text! "\t0x10, 0x10, 0x10, 0x10, 0x10, 0x10, 0x10, 0x10,",
text! "\t0x10, 0x00, 0x10, 0x10, 0x10, 0x10, 0x10, 0x10,",
text! "\t0x10, 0x10, 0x10, 0x10, 0x10, 0x10, 0x10, 0x10,",
text! "\t0x10, 0x10, 0x00, 0x00, 0x23, 0x00, 0x23, 0x23,",
text! "\t// block 0x0022",
text! "\t0x23, 0x0b, 0x0b, 0x0b, 0x0b, 0x00, 0x23, 0x23,",
text! "\t0x23, 0x00, 0x23, 0x23, 0x23, 0x33, 0x00, 0x00,",
text! "\t0x00, 0x00, 0x00, 0x00, 0x00, 0x23, 0x23, 0x00,",
text! "\t0x10, 0x10, 0x10, 0x00, 0x00, 0x00, 0x00, 0x00,",
text! "\t0x00, 0x00, 0x23, 0x23, 0x00, 0x00, 0x00, 0x00,",
text! "\t0x00, 0x00, 0x00, 0x00, 0x00, 0x00, 0x00, 0x00,",
text! "\t0x00, 0x00, 0x00, 0x00, 0x00, 0x00, 0x00, 0x00,",
text! "\t0x00, 0x00, 0x00, 0x00, 0x00, 0x00, 0x00, 0x00,",
text! "\t// block 0x0023",
text! "\t0x00, 0x23, 0x0b, 0x0b, 0x00, 0x00, 0x00, 0x00,",
text! "\t0x00, 0x00, 0x00, 0x00, 0x00, 0x00, 0x00, 0x00,",
text! "\t0x00, 0x00, 0x00, 0x00, 0x00, 0x00, 0x00, 0x00,",
text! "\t0x00, 0x00, 0x00, 0x00, 0x00, 0x00, 0x00, 0x00,",
text! "\t0x00, 0x00, 0x00, 0x00, 0x00, 0x00, 0x00, 0x00,",
text! "\t0x00, 0x00, 0x00, 0x00, 0x00, 0x00, 0x00, 0x00,",
text! "\t0x00, 0x00, 0x00, 0x00, 0x00, 0x00, 0x00, 0x00,",
text! "\t0x00, 0x00, 0x00, 0x00, 0x23, 0x00, 0x0b, 0x23,",
text! "\t// block 0x0024",
text! "\t0x23, 0x0b, 0x23, 0x0b, 0x0b, 0x00, 0x23, 0x23,",
text! "\t0x23, 0x00, 0x23, 0x23, 0x23, 0x23, 0x00, 0x00,",
text! "\t0x00, 0x00, 0x00, 0x00, 0x00, 0x23, 0x23, 0x00,",
text! "\t0x00, 0x00, 0x00, 0x00, 0x00, 0x00, 0x00, 0x00,",
text! "\t0x00, 0x00, 0x23, 0x23, 0x00, 0x00, 0x00, 0x00,",
text! "\t0x00, 0x00, 0x00, 0x00, 0x00, 0x00, 0x00, 0x00,",
text! "\t0x00, 0x00, 0x00, 0x0b, 0x00, 0x00, 0x00, 0x00,",
text! "\t0x00, 0x00, 0x00, 0x00, 0x00, 0x00, 0x00, 0x00,",
text! "\t// block 0x0025",
text! "\t0x23, 0x23, 0x0b, 0x0b, 0x00, 0x00, 0x00, 0x00,",
text! "\t0x00, 0x00, 0x00, 0x00, 0x00, 0x00, 0x00, 0x00,",
text! "\t0x00, 0x00, 0x00, 0x00, 0x00, 0x10, 0x10, 0x10,",
text! "\t0x10, 0x10, 0x10, 0x10, 0x10, 0x10, 0x10, 0x10,",
text! "\t0x10, 0x10, 0x10, 0x10, 0x10, 0x10, 0x10, 0x10,",
text! "\t0x10, 0x10, 0x10, 0x10, 0x10, 0x10, 0x10, 0x10,",
text! "\t0x10, 0x10, 0x10, 0x10, 0x10, 0x10, 0x10, 0x10,",
text! "\t0x10, 0x10, 0x10, 0x23, 0x23, 0x00, 0x23, 0x0b,",
text! "\t// block 0x0026",
text! "\t0x0b, 0x23, 0x23, 0x23, 0x23, 0x00, 0x0b, 0x0b,"]

/-- lines 577-640 -/
def tableText9 : List Nat := [
text! "\t0x0b, 0x00, 0x0b, 0x0b, 0x0b, 0x33, 0x09, 0x00,",
text! "\t0x00, 0x00, 0x00, 0x00, 0x00, 0x00, 0x00, 0x23,",
text! "\t0x00, 0x00, 0x00, 0x00, 0x00, 0x00, 0x00, 0x00,",
text! "\t0x00, 0x00, 0x23, 0x23, 0x00, 0x00, 0x00, 0x00,",
text! "\t0x00, 0x00, 0x00, 0x00, 0x00, 0x00, 0x00, 0x00,",
text! "\t0x00, 0x00, 0x00, 0x00, 0x00, 0x00, 0x00, 0x00,",
text! "\t0x00, 0x00, 0x00, 0x00, 0x00, 0x00, 0x00, 0x00,",
text! "\t// block 0x0027",
text! "\t0x00, 0x23, 0x0b, 0x0b, 0x00, 0x00, 0x00, 0x00,",
text! "\t0x00, 0x00, 0x00, 0x00, 0x00, 0x00, 0x00, 0x00,",
text! "\t0x00, 0x00, 0x00, 0x00, 0x00, 0x00, 0x00, 0x00,",
text! "\t0x00, 0x00, 0x00, 0x00, 0x00, 0x00, 0x00, 0x00,",
text! "\t0x00, 0x00, 0x00, 0x00, 0x00, 0x00, 0x00, 0x00,",
text! "\t0x00, 0x00, 0x00, 0x00, 0x00, 0x00, 0x00, 0x00,",
text! "\t0x00, 0x00, 0x00, 0x00, 0x00, 0x00, 0x00, 0x00,",
text! "\t0x00, 0x00, 0x00, 0x00, 0x00, 0x00, 0x00, 0x00,",
text! "\t// block 0x0028",
text! "\t0x00, 0x00, 0x00, 0x00, 0x00, 0x00, 0x00, 0x00,",
text! "\t0x00, 0x00, 0x23, 0x00, 0x00, 0x00, 0x00, 0x23,",
text! "\t0x0b, 0x0b, 0x23, 0x23, 0x23, 0x00, 0x23, 0x00,",
text! "\t0x0b, 0x0b, 0x0b, 0x0b, 0x0b, 0x0b, 0x0b, 0x23,",
text! "\t0x00, 0x00, 0x00, 0x00, 0x00, 0x00, 0x00, 0x00,",
text! "\t0x00, 0x00, 0x00, 0x00, 0x00, 0x00, 0x00, 0x00,",
text! "\t0x00, 0x00, 0x0b, 0x0b, 0x00, 0x00, 0x00, 0x00,",
text! "\t0x00, 0x00, 0x00, 0x00, 0x00, 0x00, 0x00, 0x00,",
text! "\t// block 0x0029",
text! "\t0x00, 0x00, 0x00, 0x00, 0x00, 0x00, 0x00, 0x00,",
text! "\t0x00, 0x00, 0x00, 0x00, 0x00, 0x00, 0x00, 0x00,",
text! "\t0x00, 0x00, 0x00, 0x00, 0x00, 0x00, 0x00, 0x00,",
text! "\t0x00, 0x00, 0x00, 0x00, 0x00, 0x00, 0x00, 0x00,",
text! "\t0x00, 0x00, 0x00, 0x00, 0x00, 0x00, 0x00, 0x00,",
text! "\t0x00, 0x00, 0x00, 0x00, 0x00, 0x00, 0x00, 0x00,",
text! "\t0x00, 0x23, 0x00, 0x0b, 0x23, 0x23, 0x23, 0x23,",
text! "\t0x23, 0x23, 0x23, 0x00, 0x00, 0x00, 0x00, 0x00,",
text! "\t// block 0x002a",
text! "\t0x00, 0x00, 0x00, 0x00, 0x00, 0x00, 0x00, 0x23,",
text! "\t0x23, 0x23, 0x23, 0x23, 0x23, 0x23, 0x23, 0x00,",
text! "\t0x00, 0x00, 0x00, 0x00, 0x00, 0x00, 0x00, 0x00,",
text! "\t0x00, 0x00, 0x00, 0x00, 0x00, 0x00, 0x00, 0x00,",
text! "\t0x00, 0x00, 0x00, 0x00, 0x00, 0x00, 0x00, 0x00,",
text! "\t0x00, 0x00, 0x00, 0x00, 0x00, 0x00, 0x00, 0x00,",
text! "\t0x00, 0x00, 0x00, 0x00, 0x00, 0x00, 0x00, 0x00,",
text! "\t0x00, 0x00, 0x00, 0x00, 0x00, 0x00, 0x00, 0x00,",
text! "\t// block 0x002b",
text! "\t0x00, 0x00, 0x00, 0x00, 0x00, 0x00, 0x00, 0x00,",
text! "\t0x00, 0x00, 0x00, 0x00, 0x00, 0x00, 0x00, 0x00,",
text! "\t0x00, 0x00, 0x00, 0x00, 0x00, 0x00, 0x00, 0x00,",
text! "\t0x00, 0x00, 0x00, 0x00, 0x00, 0x00, 0x00, 0x00,",
text! "\t0x00, 0x00, 0x00, 0x00, 0x00, 0x00, 0x00, 0x00,",
text! "\t0x00, 0x00, 0x00, 0x00, 0x00, 0x00, 0x00, 0x00,",
text! "\t0x00, 0x23, 0x00, 0x0b, 0x23, 0x23, 0x23, 0x23,",
text! "\t0x23, 0x23, 0x23, 0x23, 0x23, 0x00, 0x00, 0x00,",
text! "\t// block 0x002c",
text! "\t0x00, 0x00, 0x00, 0x00, 0x00, 0x00, 0x00, 0x00,",
text! "\t0x23, 0x23, 0x23, 0x23, 0x23, 0x23, 0x23, 0x00,",
text! "\t0x00, 0x00, 0x00, 0x00, 0x00, 0x00, 0x00, 0x00,",
text! "\t0x00, 0x00, 0x00, 0x00, 0x00, 0x00, 0x00, 0x00,",
text! "\t0x00, 0x00, 0x00, 0x00, 0x00, 0x00, 0x00, 0x00,",
text! "\t0x00, 0x00, 0x00, 0x00, 0x00, 0x00, 0x00, 0x00,",
text! "\t0x00, 0x00, 0x00, 0x00, 0x00, 0x00, 0x00, 0x00,",
text! "\t0x00, 0x00, 0x00, 0x00, 0x00, 0x00, 0x00, 0x00,",
text! "\t// block 0x002d",
text! "\t0x00, 0x00, 0x00, 0x00, 0x00, 0x00, 0x00, 0x00,",
text! "\t0x00, 0x00, 0x00, 0x00, 0x00, 0x00, 0x00, 0x00,"]

/-- lines 641-704 -/
def tableText10 : List Nat := [
text! "\t0x00, 0x00, 0x00, 0x00, 0x00, 0x00, 0x00, 0x00,",
text! "\t0x23, 0x23, 0x00, 0x00, 0x00, 0x00, 0x00, 0x00,",
text! "\t0x00, 0x00, 0x00, 0x00, 0x00, 0x00, 0x00, 0x00,",
text! "\t0x00, 0x00, 0x00, 0x00, 0x00, 0x00, 0x00, 0x00,",
text! "\t0x00, 0x00, 0x00, 0x00, 0x00, 0x23, 0x00, 0x23,",
text! "\t0x00, 0x23, 0x00, 0x00, 0x00, 0x00, 0x0b, 0x0b,",
text! "\t// block 0x002e",
text! "\t0x00, 0x00, 0x00, 0x00, 0x00, 0x00, 0x00, 0x00,",
text! "\t0x00, 0x00, 0x00, 0x00, 0x00, 0x00, 0x00, 0x00,",
text! "\t0x00, 0x00, 0x00, 0x00, 0x00, 0x00, 0x00, 0x00,",
text! "\t0x00, 0x00, 0x00, 0x00, 0x00, 0x00, 0x00, 0x00,",
text! "\t0x00, 0x00, 0x00, 0x00, 0x00, 0x00, 0x00, 0x00,",
text! "\t0x00, 0x00, 0x00, 0x00, 0x00, 0x00, 0x00, 0x00,",
text! "\t0x00, 0x23, 0x23, 0x23, 0x23, 0x23, 0x23, 0x23,",
text! "\t0x23, 0x23, 0x23, 0x23, 0x23, 0x23, 0x23, 0x0b,",
text! "\t// block 0x002f",
text! "\t0x23, 0x23, 0x23, 0x23, 0x23, 0x00, 0x23, 0x23,",
text! "\t0x00, 0x00, 0x00, 0x00, 0x00, 0x23, 0x23, 0x23,",
text! "\t0x23, 0x23, 0x23, 0x23, 0x23, 0x23, 0x23, 0x23,",
text! "\t0x00, 0x23, 0x23, 0x23, 0x23, 0x23, 0x23, 0x23,",
text! "\t0x23, 0x23, 0x23, 0x23, 0x23, 0x23, 0x23, 0x23,",
text! "\t0x23, 0x23, 0x23, 0x23, 0x23, 0x23, 0x23, 0x23,",
text! "\t0x23, 0x23, 0x23, 0x23, 0x23, 0x23, 0x23, 0x23,",
text! "\t0x23, 0x23, 0x23, 0x23, 0x23, 0x00, 0x00, 0x00,",
text! "\t// block 0x0030",
text! "\t0x00, 0x00, 0x00, 0x00, 0x00, 0x00, 0x23, 0x00,",
text! "\t0x00, 0x00, 0x00, 0x00, 0x00, 0x00, 0x00, 0x00,",
text! "\t0x00, 0x00, 0x00, 0x00, 0x00, 0x00, 0x00, 0x00,",
text! "\t0x00, 0x00, 0x00, 0x00, 0x00, 0x00, 0x00, 0x00,",
text! "\t0x00, 0x00, 0x00, 0x00, 0x00, 0x00, 0x00, 0x00,",
text! "\t0x00, 0x00, 0x00, 0x00, 0x00, 0x00, 0x00, 0x00,",
text! "\t0x00, 0x00, 0x00, 0x00, 0x00, 0x00, 0x00, 0x00,",
text! "\t0x00, 0x00, 0x00, 0x00, 0x00, 0x00, 0x00, 0x00,",
text! "\t// block 0x0031",
text! "\t0x10, 0x10, 0x10, 0x10, 0x10, 0x10, 0x10, 0x10,",
text! "\t0x10, 0x10, 0x10, 0x10, 0x10, 0x10, 0x10, 0x10,",
text! "\t0x10, 0x10, 0x10, 0x10, 0x10, 0x10, 0x10, 0x10,",
text! "\t0x10, 0x10, 0x10, 0x10, 0x10, 0x10, 0x10, 0x10,",
text! "\t0x10, 0x10, 0x10, 0x10, 0x10, 0x10, 0x10, 0x10,",
text! "\t0x10, 0x10, 0x10, 0x00, 0x00, 0x23, 0x23, 0x23,",
text! "\t0x23, 0x0b, 0x23, 0x23, 0x23, 0x23, 0x23, 0x23,",
text! "\t0x00, 0x33, 0x23, 0x0b, 0x0b, 0x23, 0x23, 0x10,",
text! "\t// block 0x0032",
text! "\t0x00, 0x00, 0x00, 0x00, 0x00, 0x00, 0x00, 0x00,",
text! "\t0x00, 0x00, 0x00, 0x00, 0x00, 0x00, 0x00, 0x00,",
text! "\t0x10, 0x10, 0x10, 0x10, 0x10, 0x10, 0x0b, 0x0b,",
text! "\t0x23, 0x23, 0x10, 0x10, 0x10, 0x10, 0x23, 0x23,",
text! "\t0x23, 0x10, 0x00, 0x00, 0x00, 0x10, 0x10, 0x00,",
text! "\t0x00, 0x00, 0x00, 0x00, 0x00, 0x00, 0x10, 0x10,",
text! "\t0x10, 0x23, 0x23, 0x23, 0x23, 0x10, 0x10, 0x10,",
text! "\t0x10, 0x10, 0x10, 0x10, 0x10, 0x10, 0x10, 0x10,",
text! "\t// block 0x0033",
text! "\t0x10, 0x10, 0x23, 0x00, 0x0b, 0x23, 0x23, 0x00,",
text! "\t0x00, 0x00, 0x00, 0x00, 0x00, 0x23, 0x10, 0x00,",
text! "\t0x00, 0x00, 0x00, 0x00, 0x00, 0x00, 0x00, 0x00,",
text! "\t0x00, 0x00, 0x00, 0x00, 0x00, 0x23, 0x00, 0x00,",
text! "\t0x00, 0x00, 0x00, 0x00, 0x00, 0x00, 0x00, 0x00,",
text! "\t0x00, 0x00, 0x00, 0x00, 0x00, 0x00, 0x00, 0x00,",
text! "\t0x00, 0x00, 0x00, 0x00, 0x00, 0x00, 0x00, 0x00,",
text! "\t0x00, 0x00, 0x00, 0x00, 0x00, 0x00, 0x00, 0x00,",
text! "\t// block 0x0034",
text! "\t0x05, 0x05, 0x05, 0x05, 0x05, 0x05, 0x05, 0x05,",
text! "\t0x05, 0x05, 0x05, 0x05, 0x05, 0x05, 0x05, 0x05,",
text! "\t0x05, 0x05, 0x05, 0x05, 0x05, 0x05, 0x05, 0x05,"]

/-- lines 705-768 -/
def tableText11 : List Nat := [
text! "\t0x05, 0x05, 0x05, 0x05, 0x05, 0x05, 0x05, 0x05,",
text! "\t0x05, 0x05, 0x05, 0x05, 0x05, 0x05, 0x05, 0x05,",
text! "\t0x05, 0x05, 0x05, 0x05, 0x05, 0x05, 0x05, 0x05,",
text! "\t0x05, 0x05, 0x05, 0x05, 0x05, 0x05, 0x05, 0x05,",
text! "\t0x05, 0x05, 0x05, 0x05, 0x05, 0x05, 0x05, 0x05,",
text! "\t// block 0x0035",
text! "\t0x05, 0x05, 0x05, 0x05, 0x05, 0x05, 0x05, 0x05,",
text! "\t0x05, 0x05, 0x05, 0x05, 0x05, 0x05, 0x05, 0x05,",
text! "\t0x05, 0x05, 0x05, 0x05, 0x05, 0x05, 0x05, 0x05,",
text! "\t0x05, 0x05, 0x05, 0x05, 0x05, 0x05, 0x05, 0x05,",
text! "\t0x0d, 0x0d, 0x0d, 0x0d, 0x0d, 0x0d, 0x0d, 0x0d,",
text! "\t0x0d, 0x0d, 0x0d, 0x0d, 0x0d, 0x0d, 0x0d, 0x0d,",
text! "\t0x0d, 0x0d, 0x0d, 0x0d, 0x0d, 0x0d, 0x0d, 0x0d,",
text! "\t0x0d, 0x0d, 0x0d, 0x0d, 0x0d, 0x0d, 0x0d, 0x0d,",
text! "\t// block 0x0036",
text! "\t0x0d, 0x0d, 0x0d, 0x0d, 0x0d, 0x0d, 0x0d, 0x0d,",
text! "\t0x0d, 0x0d, 0x0d, 0x0d, 0x0d, 0x0d, 0x0d, 0x0d,",
text! "\t0x0d, 0x0d, 0x0d, 0x0d, 0x0d, 0x0d, 0x0d, 0x0d,",
text! "\t0x0d, 0x0d, 0x0d, 0x0d, 0x0d, 0x0d, 0x0d, 0x0d,",
text! "\t0x0d, 0x0d, 0x0d, 0x0d, 0x0d, 0x0d, 0x0d, 0x0d,",
text! "\t0x0c, 0x0c, 0x0c, 0x0c, 0x0c, 0x0c, 0x0c, 0x0c,",
text! "\t0x0c, 0x0c, 0x0c, 0x0c, 0x0c, 0x0c, 0x0c, 0x0c,",
text! "\t0x0c, 0x0c, 0x0c, 0x0c, 0x0c, 0x0c, 0x0c, 0x0c,",
text! "\t// block 0x0037",
text! "\t0x0c, 0x0c, 0x0c, 0x0c, 0x0c, 0x0c, 0x0c, 0x0c,",
text! "\t0x0c, 0x0c, 0x0c, 0x0c, 0x0c, 0x0c, 0x0c, 0x0c,",
text! "\t0x0c, 0x0c, 0x0c, 0x0c, 0x0c, 0x0c, 0x0c, 0x0c,",
text! "\t0x0c, 0x0c, 0x0c, 0x0c, 0x0c, 0x0c, 0x0c, 0x0c,",
text! "\t0x0c, 0x0c, 0x0c, 0x0c, 0x0c, 0x0c, 0x0c, 0x0c,",
text! "\t0x0c, 0x0c, 0x0c, 0x0c, 0x0c, 0x0c, 0x0c, 0x0c,",
text! "\t0x0c, 0x0c, 0x0c, 0x0c, 0x0c, 0x0c, 0x0c, 0x0c,",
text! "\t0x0c, 0x0c, 0x0c, 0x0c, 0x0c, 0x0c, 0x0c, 0x0c,",
text! "\t// block 0x0038",
text! "\t0x00, 0x00, 0x00, 0x00, 0x00, 0x00, 0x00, 0x00,",
text! "\t0x00, 0x00, 0x00, 0x00, 0x00, 0x00, 0x00, 0x00,",
text! "\t0x00, 0x00, 0x00, 0x00, 0x00, 0x00, 0x00, 0x00,",
text! "\t0x00, 0x00, 0x00, 0x00, 0x00, 0x23, 0x23, 0x23,",
text! "\t0x00, 0x00, 0x00, 0x00, 0x00, 0x00, 0x00, 0x00,",
text! "\t0x00, 0x00, 0x00, 0x00, 0x00, 0x00, 0x00, 0x00,",
text! "\t0x00, 0x00, 0x00, 0x00, 0x00, 0x00, 0x00, 0x00,",
text! "\t0x00, 0x00, 0x00, 0x00, 0x00, 0x00, 0x00, 0x00,",
text! "\t// block 0x0039",
text! "\t0x00, 0x00, 0x00, 0x00, 0x00, 0x00, 0x00, 0x00,",
text! "\t0x00, 0x00, 0x00, 0x00, 0x00, 0x00, 0x00, 0x00,",
text! "\t0x00, 0x00, 0x23, 0x23, 0x23, 0x23, 0x00, 0x00,",
text! "\t0x00, 0x00, 0x00, 0x00, 0x00, 0x00, 0x00, 0x00,",
text! "\t0x00, 0x00, 0x00, 0x00, 0x00, 0x00, 0x00, 0x00,",
text! "\t0x00, 0x00, 0x00, 0x00, 0x00, 0x00, 0x00, 0x00,",
text! "\t0x00, 0x00, 0x23, 0x23, 0x23, 0x00, 0x00, 0x00,",
text! "\t0x00, 0x00, 0x00, 0x00, 0x00, 0x00, 0x00, 0x00,",
text! "\t// block 0x003a",
text! "\t0x00, 0x00, 0x00, 0x00, 0x00, 0x00, 0x00, 0x00,",
text! "\t0x00, 0x00, 0x00, 0x00, 0x00, 0x00, 0x00, 0x00,",
text! "\t0x00, 0x00, 0x23, 0x23, 0x00, 0x00, 0x00, 0x00,",
text! "\t0x00, 0x00, 0x00, 0x00, 0x00, 0x00, 0x00, 0x00,",
text! "\t0x00, 0x00, 0x00, 0x00, 0x00, 0x00, 0x00, 0x00,",
text! "\t0x00, 0x00, 0x00, 0x00, 0x00, 0x00, 0x00, 0x00,",
text! "\t0x00, 0x00, 0x23, 0x23, 0x00, 0x00, 0x00, 0x00,",
text! "\t0x00, 0x00, 0x00, 0x00, 0x00, 0x00, 0x00, 0x00,",
text! "\t// block 0x003b",
text! "\t0x10, 0x10, 0x10, 0x10, 0x10, 0x10, 0x10, 0x10,",
text! "\t0x10, 0x10, 0x10, 0x10, 0x10, 0x10, 0x10, 0x10,",
text! "\t0x10, 0x10, 0x10, 0x10, 0x10, 0x10, 0x10, 0x10,",
text! "\t0x10, 0x10, 0x10, 0x10, 0x10, 0x10, 0x10, 0x10,"]

/-- lines 769-832 -/
def tableText12 : List Nat := [
text! "\t0x10, 0x10, 0x10, 0x10, 0x10, 0x10, 0x10, 0x10,",
text! "\t0x10, 0x10, 0x10, 0x10, 0x10, 0x10, 0x10, 0x10,",
text! "\t0x10, 0x10, 0x10, 0x10, 0x23, 0x23, 0x0b, 0x23,",
text! "\t0x23, 0x23, 0x23, 0x23, 0x23, 0x23, 0x0b, 0x0b,",
text! "\t// block 0x003c",
text! "\t0x0b, 0x0b, 0x0b, 0x0b, 0x0b, 0x0b, 0x23, 0x0b,",
text! "\t0x0b, 0x23, 0x23, 0x23, 0x23, 0x23, 0x23, 0x23,",
text! "\t0x23, 0x23, 0x33, 0x23, 0x00, 0x00, 0x00, 0x00,",
text! "\t0x00, 0x00, 0x00, 0x00, 0x00, 0x23, 0x00, 0x00,",
text! "\t0x00, 0x00, 0x00, 0x00, 0x00, 0x00, 0x00, 0x00,",
text! "\t0x00, 0x00, 0x00, 0x00, 0x00, 0x00, 0x00, 0x00,",
text! "\t0x00, 0x00, 0x00, 0x00, 0x00, 0x00, 0x00, 0x00,",
text! "\t0x00, 0x00, 0x00, 0x00, 0x00, 0x00, 0x00, 0x00,",
text! "\t// block 0x003d",
text! "\t0x00, 0x00, 0x00, 0x00, 0x00, 0x00, 0x00, 0x00,",
text! "\t0x00, 0x00, 0x00, 0x23, 0x23, 0x23, 0x02, 0x23,",
text! "\t0x00, 0x00, 0x00, 0x00, 0x00, 0x00, 0x00, 0x00,",
text! "\t0x00, 0x00, 0x00, 0x00, 0x00, 0x00, 0x00, 0x00,",
text! "\t0x00, 0x00, 0x00, 0x00, 0x00, 0x00, 0x00, 0x00,",
text! "\t0x00, 0x00, 0x00, 0x00, 0x00, 0x00, 0x00, 0x00,",
text! "\t0x00, 0x00, 0x00, 0x00, 0x00, 0x00, 0x00, 0x00,",
text! "\t0x00, 0x00, 0x00, 0x00, 0x00, 0x00, 0x00, 0x00,",
text! "\t// block 0x003e",
text! "\t0x00, 0x00, 0x00, 0x00, 0x00, 0x23, 0x23, 0x00,",
text! "\t0x00, 0x00, 0x00, 0x00, 0x00, 0x00, 0x00, 0x00,",
text! "\t0x00, 0x00, 0x00, 0x00, 0x00, 0x00, 0x00, 0x00,",
text! "\t0x00, 0x00, 0x00, 0x00, 0x00, 0x00, 0x00, 0x00,",
text! "\t0x00, 0x00, 0x00, 0x00, 0x00, 0x00, 0x00, 0x00,",
text! "\t0x00, 0x23, 0x00, 0x00, 0x00, 0x00, 0x00, 0x00,",
text! "\t0x00, 0x00, 0x00, 0x00, 0x00, 0x00, 0x00, 0x00,",
text! "\t0x00, 0x00, 0x00, 0x00, 0x00, 0x00, 0x00, 0x00,",
text! "\t// block 0x003f",
text! "\t0x00, 0x00, 0x00, 0x00, 0x00, 0x00, 0x00, 0x00,",
text! "\t0x00, 0x00, 0x00, 0x00, 0x00, 0x00, 0x00, 0x00,",
text! "\t0x00, 0x00, 0x00, 0x00, 0x00, 0x00, 0x00, 0x00,",
text! "\t0x00, 0x00, 0x00, 0x00, 0x00, 0x00, 0x00, 0x00,",
text! "\t0x23, 0x23, 0x23, 0x0b, 0x0b, 0x0b, 0x0b, 0x23,",
text! "\t0x23, 0x0b, 0x0b, 0x0b, 0x00, 0x00, 0x00, 0x00,",
text! "\t0x0b, 0x0b, 0x23, 0x0b, 0x0b, 0x0b, 0x0b, 0x0b,",
text! "\t0x0b, 0x23, 0x23, 0x23, 0x00, 0x00, 0x00, 0x00,",
text! "\t// block 0x0040",
text! "\t0x00, 0x00, 0x00, 0x00, 0x00, 0x00, 0x00, 0x00,",
text! "\t0x00, 0x00, 0x00, 0x00, 0x00, 0x00, 0x00, 0x00,",
text! "\t0x00, 0x00, 0x00, 0x00, 0x00, 0x00, 0x00, 0x23,",
text! "\t0x23, 0x0b, 0x0b, 0x23, 0x00, 0x00, 0x00, 0x00,",
text! "\t0x10, 0x10, 0x10, 0x10, 0x10, 0x10, 0x10, 0x10,",
text! "\t0x10, 0x10, 0x10, 0x10, 0x10, 0x10, 0x10, 0x10,",
text! "\t0x10, 0x10, 0x10, 0x10, 0x10, 0x10, 0x10, 0x10,",
text! "\t0x10, 0x10, 0x10, 0x10, 0x10, 0x10, 0x10, 0x10,",
text! "\t// block 0x0041",
text! "\t0x10, 0x10, 0x10, 0x10, 0x10, 0x10, 0x10, 0x10,",
text! "\t0x10, 0x10, 0x10, 0x10, 0x10, 0x10, 0x10, 0x10,",
text! "\t0x10, 0x10, 0x10, 0x10, 0x10, 0x0b, 0x23, 0x0b,",
text! "\t0x23, 0x23, 0x23, 0x23, 0x23, 0x23, 0x23, 0x00,",
text! "\t0x33, 0x00, 0x23, 0x00, 0x00, 0x23, 0x23, 0x23,",
text! "\t0x23, 0x23, 0x23, 0x23, 0x23, 0x0b, 0x0b, 0x0b,",
text! "\t0x0b, 0x0b, 0x0b, 0x23, 0x23, 0x23, 0x23, 0x23,",
text! "\t0x23, 0x23, 0x23, 0x23, 0x23, 0x00, 0x00, 0x23,",
text! "\t// block 0x0042",
text! "\t0x00, 0x00, 0x00, 0x00, 0x00, 0x00, 0x00, 0x00,",
text! "\t0x00, 0x00, 0x00, 0x00, 0x00, 0x00, 0x00, 0x00,",
text! "\t0x00, 0x00, 0x00, 0x00, 0x00, 0x00, 0x00, 0x00,",
text! "\t0x00, 0x00, 0x00, 0x00, 0x00, 0x00, 0x00, 0x00,",
text! "\t0x00, 0x00, 0x00, 0x00, 0x00, 0x00, 0x00, 0x00,"]

/-- lines 833-896 -/
def tableText13 : List Nat := [
text! "\t0x00, 0x00, 0x00, 0x00, 0x00, 0x00, 0x00, 0x00,",
text! "\t0x23, 0x23, 0x23, 0x23, 0x23, 0x23, 0x23, 0x23,",
text! "\t0x23, 0x23, 0x23, 0x23, 0x23, 0x23, 0x23, 0x23,",
text! "\t// block 0x0043",
text! "\t0x23, 0x23, 0x23, 0x23, 0x23, 0x23, 0x23, 0x23,",
text! "\t0x23, 0x23, 0x23, 0x23, 0x23, 0x23, 0x23, 0x23,",
text! "\t0x23, 0x23, 0x23, 0x23, 0x23, 0x23, 0x23, 0x23,",
text! "\t0x23, 0x23, 0x23, 0x23, 0x23, 0x23, 0x00, 0x00,",
text! "\t0x23, 0x23, 0x23, 0x23, 0x23, 0x23, 0x23, 0x23,",
text! "\t0x23, 0x23, 0x23, 0x23, 0x00, 0x00, 0x00, 0x00,",
text! "\t0x00, 0x00, 0x00, 0x00, 0x00, 0x00, 0x00, 0x00,",
text! "\t0x00, 0x00, 0x00, 0x00, 0x00, 0x00, 0x00, 0x00,",
text! "\t// block 0x0044",
text! "\t0x23, 0x23, 0x23, 0x23, 0x0b, 0x00, 0x00, 0x00,",
text! "\t0x00, 0x00, 0x00, 0x10, 0x10, 0x00, 0x00, 0x00,",
text! "\t0x00, 0x00, 0x00, 0x10, 0x10, 0x10, 0x10, 0x10,",
text! "\t0x10, 0x10, 0x10, 0x10, 0x10, 0x10, 0x10, 0x10,",
text! "\t0x10, 0x10, 0x10, 0x10, 0x10, 0x10, 0x10, 0x10,",
text! "\t0x10, 0x10, 0x10, 0x10, 0x10, 0x10, 0x10, 0x10,",
text! "\t0x10, 0x10, 0x10, 0x10, 0x23, 0x23, 0x23, 0x23,",
text! "\t0x23, 0x23, 0x23, 0x23, 0x23, 0x23, 0x0b, 0x0b,",
text! "\t// block 0x0045",
text! "\t0x0b, 0x0b, 0x23, 0x23, 0x33, 0x10, 0x10, 0x10,",
text! "\t0x10, 0x10, 0x10, 0x10, 0x10, 0x00, 0x00, 0x00,",
text! "\t0x00, 0x00, 0x00, 0x00, 0x00, 0x00, 0x00, 0x00,",
text! "\t0x00, 0x00, 0x00, 0x00, 0x00, 0x00, 0x00, 0x00,",
text! "\t0x00, 0x00, 0x00, 0x00, 0x00, 0x00, 0x00, 0x00,",
text! "\t0x00, 0x00, 0x00, 0x23, 0x23, 0x23, 0x23, 0x23,",
text! "\t0x23, 0x23, 0x23, 0x23, 0x00, 0x00, 0x00, 0x00,",
text! "\t0x00, 0x00, 0x00, 0x00, 0x00, 0x00, 0x00, 0x00,",
text! "\t// block 0x0046",
text! "\t0x23, 0x23, 0x0b, 0x10, 0x10, 0x10, 0x10, 0x10,",
text! "\t0x10, 0x10, 0x10, 0x10, 0x10, 0x10, 0x10, 0x10,",
text! "\t0x10, 0x10, 0x10, 0x10, 0x10, 0x10, 0x10, 0x10,",
text! "\t0x10, 0x10, 0x10, 0x10, 0x10, 0x10, 0x10, 0x10,",
text! "\t0x10, 0x0b, 0x23, 0x23, 0x23, 0x23, 0x0b, 0x0b,",
text! "\t0x23, 0x23, 0x23, 0x33, 0x23, 0x23, 0x10, 0x10,",
text! "\t0x00, 0x00, 0x00, 0x00, 0x00, 0x00, 0x00, 0x00,",
text! "\t0x00, 0x00, 0x00, 0x10, 0x10, 0x10, 0x00, 0x00,",
text! "\t// block 0x0047",
text! "\t0x00, 0x00, 0x00, 0x00, 0x00, 0x00, 0x00, 0x00,",
text! "\t0x00, 0x00, 0x00, 0x00, 0x00, 0x00, 0x00, 0x00,",
text! "\t0x00, 0x00, 0x00, 0x00, 0x00, 0x00, 0x00, 0x00,",
text! "\t0x00, 0x00, 0x00, 0x00, 0x00, 0x00, 0x00, 0x00,",
text! "\t0x00, 0x00, 0x00, 0x00, 0x00, 0x00, 0x23, 0x0b,",
text! "\t0x23, 0x23, 0x0b, 0x0b, 0x0b, 0x23, 0x0b, 0x23,",
text! "\t0x23, 0x23, 0x23, 0x23, 0x00, 0x00, 0x00, 0x00,",
text! "\t0x00, 0x00, 0x00, 0x00, 0x00, 0x00, 0x00, 0x00,",
text! "\t// block 0x0048",
text! "\t0x00, 0x00, 0x00, 0x00, 0x00, 0x00, 0x00, 0x00,",
text! "\t0x00, 0x00, 0x00, 0x00, 0x00, 0x00, 0x00, 0x00,",
text! "\t0x00, 0x00, 0x00, 0x00, 0x00, 0x00, 0x00, 0x00,",
text! "\t0x00, 0x00, 0x00, 0x00, 0x00, 0x00, 0x00, 0x00,",
text! "\t0x00, 0x00, 0x00, 0x00, 0x0b, 0x0b, 0x0b, 0x0b,",
text! "\t0x0b, 0x0b, 0x0b, 0x0b, 0x23, 0x23, 0x23, 0x23,",
text! "\t0x23, 0x23, 0x23, 0x23, 0x0b, 0x0b, 0x23, 0x23,",
text! "\t0x00, 0x00, 0x00, 0x00, 0x00, 0x00, 0x00, 0x00,",
text! "\t// block 0x0049",
text! "\t0x00, 0x00, 0x00, 0x00, 0x00, 0x00, 0x00, 0x00,",
text! "\t0x00, 0x00, 0x00, 0x00, 0x00, 0x00, 0x00, 0x00,",
text! "\t0x23, 0x23, 0x23, 0x00, 0x23, 0x23, 0x23, 0x23,",
text! "\t0x23, 0x23, 0x23, 0x23, 0x23, 0x23, 0x23, 0x23,",
text! "\t0x23, 0x0b, 0x23, 0x23, 0x23, 0x23, 0x23, 0x23,",
text! "\t0x23, 0x00, 0x00, 0x00, 0x00, 0x23, 0x00, 0x00,"]

/-- lines 897-960 -/
def tableText14 : List Nat := [
text! "\t0x00, 0x00, 0x00, 0x00, 0x23, 0x00, 0x00, 0x0b,",
text! "\t0x23, 0x23, 0x00, 0x00, 0x00, 0x00, 0x00, 0x00,",
text! "\t// block 0x004a",
text! "\t0x23, 0x23, 0x23, 0x23, 0x23, 0x23, 0x23, 0x23,",
text! "\t0x23, 0x23, 0x23, 0x23, 0x23, 0x23, 0x23, 0x23,",
text! "\t0x23, 0x23, 0x23, 0x23, 0x23, 0x23, 0x23, 0x23,",
text! "\t0x23, 0x23, 0x23, 0x23, 0x23, 0x23, 0x23, 0x23,",
text! "\t0x23, 0x23, 0x23, 0x23, 0x23, 0x23, 0x23, 0x23,",
text! "\t0x23, 0x23, 0x23, 0x23, 0x23, 0x23, 0x23, 0x23,",
text! "\t0x23, 0x23, 0x23, 0x23, 0x23, 0x23, 0x23, 0x23,",
text! "\t0x23, 0x23, 0x23, 0x23, 0x23, 0x23, 0x23, 0x23,",
text! "\t// block 0x004b",
text! "\t0x00, 0x00, 0x00, 0x00, 0x00, 0x00, 0x00, 0x00,",
text! "\t0x00, 0x00, 0x00, 0x02, 0x03, 0x2e, 0x02, 0x02,",
text! "\t0x00, 0x00, 0x00, 0x00, 0x00, 0x00, 0x00, 0x00,",
text! "\t0x00, 0x00, 0x00, 0x00, 0x00, 0x00, 0x00, 0x00,",
text! "\t0x00, 0x00, 0x00, 0x00, 0x00, 0x00, 0x00, 0x00,",
text! "\t0x02, 0x02, 0x02, 0x02, 0x02, 0x02, 0x02, 0x00,",
text! "\t0x00, 0x00, 0x00, 0x00, 0x00, 0x00, 0x00, 0x00,",
text! "\t0x00, 0x00, 0x00, 0x00, 0x04, 0x00, 0x00, 0x00,",
text! "\t// block 0x004c",
text! "\t0x00, 0x00, 0x00, 0x00, 0x00, 0x00, 0x00, 0x00,",
text! "\t0x00, 0x04, 0x00, 0x00, 0x00, 0x00, 0x00, 0x00,",
text! "\t0x00, 0x00, 0x00, 0x00, 0x00, 0x00, 0x00, 0x00,",
text! "\t0x00, 0x00, 0x00, 0x00, 0x00, 0x00, 0x00, 0x00,",
text! "\t0x02, 0x02, 0x02, 0x02, 0x02, 0x02, 0x02, 0x02,",
text! "\t0x02, 0x02, 0x02, 0x02, 0x02, 0x02, 0x02, 0x02,",
text! "\t0x00, 0x00, 0x00, 0x00, 0x00, 0x00, 0x00, 0x00,",
text! "\t0x00, 0x00, 0x00, 0x00, 0x00, 0x00, 0x00, 0x00,",
text! "\t// block 0x004d",
text! "\t0x00, 0x00, 0x00, 0x00, 0x00, 0x00, 0x00, 0x00,",
text! "\t0x00, 0x00, 0x00, 0x00, 0x00, 0x00, 0x00, 0x00,",
text! "\t0x23, 0x23, 0x23, 0x23, 0x23, 0x23, 0x23, 0x23,",
text! "\t0x23, 0x23, 0x23, 0x23, 0x23, 0x23, 0x23, 0x23,",
text! "\t0x23, 0x23, 0x23, 0x23, 0x23, 0x23, 0x23, 0x23,",
text! "\t0x23, 0x23, 0x23, 0x23, 0x23, 0x23, 0x23, 0x23,",
text! "\t0x23, 0x00, 0x00, 0x00, 0x00, 0x00, 0x00, 0x00,",
text! "\t0x00, 0x00, 0x00, 0x00, 0x00, 0x00, 0x00, 0x00,",
text! "\t// block 0x004e",
text! "\t0x00, 0x00, 0x00, 0x00, 0x00, 0x00, 0x00, 0x00,",
text! "\t0x00, 0x00, 0x00, 0x00, 0x00, 0x00, 0x00, 0x00,",
text! "\t0x00, 0x00, 0x00, 0x00, 0x00, 0x00, 0x00, 0x00,",
text! "\t0x00, 0x00, 0x00, 0x00, 0x00, 0x00, 0x00, 0x00,",
text! "\t0x00, 0x00, 0x04, 0x00, 0x00, 0x00, 0x00, 0x00,",
text! "\t0x00, 0x00, 0x00, 0x00, 0x00, 0x00, 0x00, 0x00,",
text! "\t0x00, 0x00, 0x00, 0x00, 0x00, 0x00, 0x00, 0x00,",
text! "\t0x00, 0x04, 0x00, 0x00, 0x00, 0x00, 0x00, 0x00,",
text! "\t// block 0x004f",
text! "\t0x00, 0x00, 0x00, 0x00, 0x00, 0x00, 0x00, 0x00,",
text! "\t0x00, 0x00, 0x00, 0x00, 0x00, 0x00, 0x00, 0x00,",
text! "\t0x00, 0x00, 0x00, 0x00, 0x04, 0x04, 0x04, 0x04,",
text! "\t0x04, 0x04, 0x00, 0x00, 0x00, 0x00, 0x00, 0x00,",
text! "\t0x00, 0x00, 0x00, 0x00, 0x00, 0x00, 0x00, 0x00,",
text! "\t0x00, 0x04, 0x04, 0x00, 0x00, 0x00, 0x00, 0x00,",
text! "\t0x00, 0x00, 0x00, 0x00, 0x00, 0x00, 0x00, 0x00,",
text! "\t0x00, 0x00, 0x00, 0x00, 0x00, 0x00, 0x00, 0x00,",
text! "\t// block 0x0050",
text! "\t0x00, 0x00, 0x00, 0x00, 0x00, 0x00, 0x00, 0x00,",
text! "\t0x00, 0x00, 0x00, 0x00, 0x00, 0x00, 0x00, 0x00,",
text! "\t0x00, 0x00, 0x00, 0x00, 0x00, 0x00, 0x00, 0x00,",
text! "\t0x00, 0x00, 0x04, 0x04, 0x00, 0x00, 0x00, 0x00,",
text! "\t0x00, 0x00, 0x00, 0x00, 0x00, 0x00, 0x00, 0x00,",
text! "\t0x04, 0x00, 0x00, 0x00, 0x00, 0x00, 0x00, 0x00,",
text! "\t0x00, 0x00, 0x00, 0x00, 0x00, 0x00, 0x00, 0x00,"]

/-- lines 961-1024 -/
def tableText15 : List Nat := [
text! "\t0x00, 0x00, 0x00, 0x00, 0x00, 0x00, 0x00, 0x00,",
text! "\t// block 0x0051",
text! "\t0x00, 0x00, 0x00, 0x00, 0x00, 0x00, 0x00, 0x00,",
text! "\t0x00, 0x00, 0x00, 0x00, 0x00, 0x00, 0x00, 0x04,",
text! "\t0x00, 0x00, 0x00, 0x00, 0x00, 0x00, 0x00, 0x00,",
text! "\t0x00, 0x00, 0x00, 0x00, 0x00, 0x00, 0x00, 0x00,",
text! "\t0x00, 0x00, 0x00, 0x00, 0x00, 0x00, 0x00, 0x00,",
text! "\t0x00, 0x04, 0x04, 0x04, 0x04, 0x04, 0x04, 0x04,",
text! "\t0x04, 0x04, 0x04, 0x04, 0x00, 0x00, 0x00, 0x00,",
text! "\t0x04, 0x04, 0x04, 0x00, 0x00, 0x00, 0x00, 0x00,",
text! "\t// block 0x0052",
text! "\t0x00, 0x00, 0x04, 0x00, 0x00, 0x00, 0x00, 0x00,",
text! "\t0x00, 0x00, 0x00, 0x00, 0x00, 0x00, 0x00, 0x00,",
text! "\t0x00, 0x00, 0x00, 0x00, 0x00, 0x00, 0x00, 0x00,",
text! "\t0x00, 0x00, 0x00, 0x00, 0x00, 0x00, 0x00, 0x00,",
text! "\t0x00, 0x00, 0x00, 0x00, 0x00, 0x00, 0x00, 0x00,",
text! "\t0x00, 0x00, 0x00, 0x00, 0x00, 0x00, 0x00, 0x00,",
text! "\t0x00, 0x00, 0x00, 0x00, 0x00, 0x00, 0x00, 0x00,",
text! "\t0x00, 0x00, 0x00, 0x00, 0x00, 0x00, 0x00, 0x00,",
text! "\t// block 0x0053",
text! "\t0x00, 0x00, 0x00, 0x00, 0x00, 0x00, 0x00, 0x00,",
text! "\t0x00, 0x00, 0x00, 0x00, 0x00, 0x00, 0x00, 0x00,",
text! "\t0x00, 0x00, 0x00, 0x00, 0x00, 0x00, 0x00, 0x00,",
text! "\t0x00, 0x00, 0x00, 0x00, 0x00, 0x00, 0x00, 0x00,",
text! "\t0x00, 0x00, 0x00, 0x00, 0x00, 0x00, 0x00, 0x00,",
text! "\t0x00, 0x00, 0x04, 0x04, 0x00, 0x00, 0x00, 0x00,",
text! "\t0x00, 0x00, 0x00, 0x00, 0x00, 0x00, 0x04, 0x00,",
text! "\t0x00, 0x00, 0x00, 0x00, 0x00, 0x00, 0x00, 0x00,",
text! "\t// block 0x0054",
text! "\t0x04, 0x00, 0x00, 0x00, 0x00, 0x00, 0x00, 0x00,",
text! "\t0x00, 0x00, 0x00, 0x00, 0x00, 0x00, 0x00, 0x00,",
text! "\t0x00, 0x00, 0x00, 0x00, 0x00, 0x00, 0x00, 0x00,",
text! "\t0x00, 0x00, 0x00, 0x00, 0x00, 0x00, 0x00, 0x00,",
text! "\t0x00, 0x00, 0x00, 0x00, 0x00, 0x00, 0x00, 0x00,",
text! "\t0x00, 0x00, 0x00, 0x00, 0x00, 0x00, 0x00, 0x00,",
text! "\t0x00, 0x00, 0x00, 0x00, 0x00, 0x00, 0x00, 0x00,",
text! "\t0x00, 0x00, 0x00, 0x04, 0x04, 0x04, 0x04, 0x00,",
text! "\t// block 0x0055",
text! "\t0x04, 0x04, 0x04, 0x04, 0x04, 0x00, 0x00, 0x00,",
text! "\t0x00, 0x00, 0x00, 0x00, 0x00, 0x00, 0x04, 0x00,",
text! "\t0x00, 0x04, 0x00, 0x00, 0x04, 0x04, 0x00, 0x00,",
text! "\t0x04, 0x00, 0x00, 0x00, 0x00, 0x04, 0x00, 0x00,",
text! "\t0x04, 0x00, 0x04, 0x04, 0x00, 0x00, 0x04, 0x00,",
text! "\t0x00, 0x00, 0x04, 0x00, 0x00, 0x00, 0x04, 0x04,",
text! "\t0x00, 0x00, 0x00, 0x00, 0x00, 0x00, 0x00, 0x00,",
text! "\t0x04, 0x04, 0x04, 0x00, 0x00, 0x00, 0x00, 0x00,",
text! "\t// block 0x0056",
text! "\t0x04, 0x00, 0x04, 0x00, 0x00, 0x00, 0x00, 0x00,",
text! "\t0x04, 0x04, 0x04, 0x04, 0x04, 0x04, 0x04, 0x04,",
text! "\t0x04, 0x04, 0x04, 0x04, 0x00, 0x00, 0x00, 0x00,",
text! "\t0x00, 0x00, 0x00, 0x00, 0x00, 0x00, 0x00, 0x04,",
text! "\t0x04, 0x00, 0x00, 0x04, 0x00, 0x04, 0x04, 0x00,",
text! "\t0x04, 0x00, 0x00, 0x00, 0x00, 0x00, 0x00, 0x00,",
text! "\t0x00, 0x00, 0x00, 0x00, 0x00, 0x00, 0x00, 0x00,",
text! "\t0x00, 0x00, 0x00, 0x04, 0x00, 0x00, 0x04, 0x04,",
text! "\t// block 0x0057",
text! "\t0x00, 0x00, 0x00, 0x00, 0x00, 0x00, 0x00, 0x00,",
text! "\t0x00, 0x00, 0x00, 0x00, 0x00, 0x00, 0x00, 0x00,",
text! "\t0x00, 0x00, 0x04, 0x04, 0x04, 0x04, 0x04, 0x04,",
text! "\t0x00, 0x04, 0x00, 0x04, 0x04, 0x00, 0x00, 0x00,",
text! "\t0x04, 0x04, 0x00, 0x00, 0x00, 0x00, 0x00, 0x04,",
text! "\t0x00, 0x00, 0x04, 0x04, 0x00, 0x00, 0x00, 0x00,",
text! "\t0x04, 0x04, 0x00, 0x00, 0x00, 0x00, 0x00, 0x00,",
text! "\t0x00, 0x00, 0x00, 0x00, 0x00, 0x04, 0x04, 0x00,"]

/-- lines 1025-1088 -/
def tableText16 : List Nat := [
text! "\t// block 0x0058",
text! "\t0x00, 0x00, 0x00, 0x00, 0x04, 0x04, 0x00, 0x00,",
text! "\t0x04, 0x00, 0x00, 0x00, 0x00, 0x00, 0x04, 0x04,",
text! "\t0x00, 0x04, 0x00, 0x04, 0x04, 0x00, 0x00, 0x00,",
text! "\t0x00, 0x00, 0x00, 0x00, 0x00, 0x00, 0x00, 0x00,",
text! "\t0x00, 0x00, 0x00, 0x00, 0x00, 0x00, 0x00, 0x00,",
text! "\t0x00, 0x04, 0x04, 0x00, 0x00, 0x00, 0x00, 0x00,",
text! "\t0x04, 0x04, 0x04, 0x04, 0x04, 0x04, 0x00, 0x04,",
text! "\t0x04, 0x04, 0x04, 0x00, 0x00, 0x04, 0x00, 0x00,",
text! "\t// block 0x0059",
text! "\t0x00, 0x00, 0x04, 0x00, 0x00, 0x04, 0x00, 0x00,",
text! "\t0x04, 0x04, 0x04, 0x04, 0x04, 0x04, 0x00, 0x04,",
text! "\t0x00, 0x00, 0x04, 0x00, 0x04, 0x00, 0x04, 0x00,",
text! "\t0x00, 0x00, 0x00, 0x00, 0x00, 0x04, 0x00, 0x00,",
text! "\t0x00, 0x04, 0x00, 0x00, 0x00, 0x00, 0x00, 0x00,",
text! "\t0x04, 0x00, 0x00, 0x00, 0x00, 0x00, 0x00, 0x00,",
text! "\t0x00, 0x00, 0x00, 0x04, 0x04, 0x00, 0x00, 0x00,",
text! "\t0x00, 0x00, 0x00, 0x00, 0x00, 0x00, 0x00, 0x00,",
text! "\t// block 0x005a",
text! "\t0x00, 0x00, 0x00, 0x00, 0x04, 0x00, 0x00, 0x04,",
text! "\t0x00, 0x00, 0x00, 0x00, 0x04, 0x00, 0x04, 0x00,",
text! "\t0x00, 0x00, 0x00, 0x04, 0x04, 0x04, 0x00, 0x04,",
text! "\t0x00, 0x00, 0x00, 0x00, 0x00, 0x00, 0x00, 0x00,",
text! "\t0x00, 0x00, 0x00, 0x04, 0x04, 0x00, 0x00, 0x00,",
text! "\t0x00, 0x00, 0x00, 0x00, 0x00, 0x00, 0x00, 0x00,",
text! "\t0x00, 0x00, 0x00, 0x00, 0x00, 0x00, 0x00, 0x00,",
text! "\t0x00, 0x00, 0x00, 0x00, 0x00, 0x00, 0x00, 0x00,",
text! "\t// block 0x005b",
text! "\t0x00, 0x00, 0x00, 0x00, 0x00, 0x00, 0x00, 0x00,",
text! "\t0x00, 0x00, 0x00, 0x00, 0x00, 0x00, 0x00, 0x00,",
text! "\t0x00, 0x00, 0x00, 0x00, 0x00, 0x04, 0x04, 0x04,",
text! "\t0x00, 0x00, 0x00, 0x00, 0x00, 0x00, 0x00, 0x00,",
text! "\t0x00, 0x04, 0x00, 0x00, 0x00, 0x00, 0x00, 0x00,",
text! "\t0x00, 0x00, 0x00, 0x00, 0x00, 0x00, 0x00, 0x00,",
text! "\t0x04, 0x00, 0x00, 0x00, 0x00, 0x00, 0x00, 0x00,",
text! "\t0x00, 0x00, 0x00, 0x00, 0x00, 0x00, 0x00, 0x04,",
text! "\t// block 0x005c",
text! "\t0x00, 0x00, 0x00, 0x00, 0x00, 0x00, 0x00, 0x00,",
text! "\t0x00, 0x00, 0x00, 0x00, 0x00, 0x00, 0x00, 0x00,",
text! "\t0x00, 0x00, 0x00, 0x00, 0x00, 0x00, 0x00, 0x00,",
text! "\t0x00, 0x00, 0x00, 0x00, 0x00, 0x00, 0x00, 0x00,",
text! "\t0x00, 0x00, 0x00, 0x00, 0x00, 0x00, 0x00, 0x00,",
text! "\t0x00, 0x00, 0x00, 0x00, 0x00, 0x00, 0x00, 0x00,",
text! "\t0x00, 0x00, 0x00, 0x00, 0x04, 0x04, 0x00, 0x00,",
text! "\t0x00, 0x00, 0x00, 0x00, 0x00, 0x00, 0x00, 0x00,",
text! "\t// block 0x005d",
text! "\t0x00, 0x00, 0x00, 0x00, 0x00, 0x04, 0x04, 0x04,",
text! "\t0x00, 0x00, 0x00, 0x00, 0x00, 0x00, 0x00, 0x00,",
text! "\t0x00, 0x00, 0x00, 0x00, 0x00, 0x00, 0x00, 0x00,",
text! "\t0x00, 0x00, 0x00, 0x04, 0x04, 0x00, 0x00, 0x00,",
text! "\t0x00, 0x00, 0x00, 0x00, 0x00, 0x00, 0x00, 0x00,",
text! "\t0x00, 0x00, 0x00, 0x00, 0x00, 0x00, 0x00, 0x00,",
text! "\t0x00, 0x00, 0x00, 0x00, 0x00, 0x00, 0x00, 0x00,",
text! "\t0x00, 0x00, 0x00, 0x00, 0x00, 0x00, 0x00, 0x00,",
text! "\t// block 0x005e",
text! "\t0x00, 0x00, 0x00, 0x00, 0x00, 0x00, 0x00, 0x00,",
text! "\t0x00, 0x00, 0x00, 0x00, 0x00, 0x00, 0x00, 0x00,",
text! "\t0x04, 0x00, 0x00, 0x00, 0x00, 0x04, 0x00, 0x00,",
text! "\t0x00, 0x00, 0x00, 0x00, 0x00, 0x00, 0x00, 0x00,",
text! "\t0x00, 0x00, 0x00, 0x00, 0x00, 0x00, 0x00, 0x00,",
text! "\t0x00, 0x00, 0x00, 0x00, 0x00, 0x00, 0x00, 0x00,",
text! "\t0x00, 0x00, 0x00, 0x00, 0x00, 0x00, 0x00, 0x00,",
text! "\t0x00, 0x00, 0x00, 0x00, 0x00, 0x00, 0x00, 0x00,",
text! "\t// block 0x005f"]

/-- lines 1089-1152 -/
def tableText17 : List Nat := [
text! "\t0x00, 0x00, 0x00, 0x00, 0x00, 0x00, 0x00, 0x00,",
text! "\t0x00, 0x00, 0x00, 0x00, 0x00, 0x00, 0x00, 0x00,",
text! "\t0x00, 0x00, 0x00, 0x00, 0x00, 0x00, 0x00, 0x00,",
text! "\t0x00, 0x00, 0x00, 0x00, 0x00, 0x00, 0x00, 0x00,",
text! "\t0x00, 0x00, 0x00, 0x00, 0x00, 0x00, 0x00, 0x00,",
text! "\t0x00, 0x00, 0x00, 0x00, 0x00, 0x00, 0x00, 0x23,",
text! "\t0x23, 0x23, 0x00, 0x00, 0x00, 0x00, 0x00, 0x00,",
text! "\t0x00, 0x00, 0x00, 0x00, 0x00, 0x00, 0x00, 0x00,",
text! "\t// block 0x0060",
text! "\t0x00, 0x00, 0x00, 0x00, 0x00, 0x00, 0x00, 0x00,",
text! "\t0x00, 0x00, 0x00, 0x00, 0x00, 0x00, 0x00, 0x00,",
text! "\t0x00, 0x00, 0x00, 0x00, 0x00, 0x00, 0x00, 0x00,",
text! "\t0x00, 0x00, 0x00, 0x00, 0x00, 0x00, 0x00, 0x00,",
text! "\t0x00, 0x00, 0x00, 0x00, 0x00, 0x00, 0x00, 0x00,",
text! "\t0x00, 0x00, 0x00, 0x00, 0x00, 0x00, 0x00, 0x00,",
text! "\t0x00, 0x00, 0x00, 0x00, 0x00, 0x00, 0x00, 0x00,",
text! "\t0x00, 0x00, 0x00, 0x00, 0x00, 0x00, 0x00, 0x23,",
text! "\t// block 0x0061",
text! "\t0x00, 0x00, 0x00, 0x00, 0x00, 0x00, 0x00, 0x00,",
text! "\t0x00, 0x00, 0x00, 0x00, 0x00, 0x00, 0x00, 0x00,",
text! "\t0x00, 0x00, 0x00, 0x00, 0x00, 0x00, 0x00, 0x00,",
text! "\t0x00, 0x00, 0x00, 0x00, 0x00, 0x00, 0x00, 0x00,",
text! "\t0x23, 0x23, 0x23, 0x23, 0x23, 0x23, 0x23, 0x23,",
text! "\t0x23, 0x23, 0x23, 0x23, 0x23, 0x23, 0x23, 0x23,",
text! "\t0x23, 0x23, 0x23, 0x23, 0x23, 0x23, 0x23, 0x23,",
text! "\t0x23, 0x23, 0x23, 0x23, 0x23, 0x23, 0x23, 0x23,",
text! "\t// block 0x0062",
text! "\t0x00, 0x00, 0x00, 0x00, 0x00, 0x00, 0x00, 0x00,",
text! "\t0x00, 0x00, 0x00, 0x00, 0x00, 0x00, 0x00, 0x00,",
text! "\t0x00, 0x00, 0x00, 0x00, 0x00, 0x00, 0x00, 0x00,",
text! "\t0x00, 0x00, 0x00, 0x00, 0x00, 0x00, 0x00, 0x00,",
text! "\t0x00, 0x00, 0x00, 0x00, 0x00, 0x00, 0x00, 0x00,",
text! "\t0x00, 0x00, 0x23, 0x23, 0x23, 0x23, 0x23, 0x23,",
text! "\t0x04, 0x00, 0x00, 0x00, 0x00, 0x00, 0x00, 0x00,",
text! "\t0x00, 0x00, 0x00, 0x00, 0x00, 0x04, 0x00, 0x00,",
text! "\t// block 0x0063",
text! "\t0x00, 0x00, 0x00, 0x00, 0x00, 0x00, 0x00, 0x00,",
text! "\t0x00, 0x00, 0x00, 0x00, 0x00, 0x00, 0x00, 0x00,",
text! "\t0x00, 0x00, 0x00, 0x00, 0x00, 0x00, 0x00, 0x00,",
text! "\t0x00, 0x23, 0x23, 0x00, 0x00, 0x00, 0x00, 0x00,",
text! "\t0x00, 0x00, 0x00, 0x00, 0x00, 0x00, 0x00, 0x00,",
text! "\t0x00, 0x00, 0x00, 0x00, 0x00, 0x00, 0x00, 0x00,",
text! "\t0x00, 0x00, 0x00, 0x00, 0x00, 0x00, 0x00, 0x00,",
text! "\t0x00, 0x00, 0x00, 0x00, 0x00, 0x00, 0x00, 0x00,",
text! "\t// block 0x0064",
text! "\t0x00, 0x00, 0x00, 0x00, 0x00, 0x00, 0x00, 0x00,",
text! "\t0x00, 0x00, 0x00, 0x00, 0x00, 0x00, 0x00, 0x00,",
text! "\t0x00, 0x00, 0x00, 0x00, 0x00, 0x00, 0x00, 0x04,",
text! "\t0x00, 0x04, 0x00, 0x00, 0x00, 0x00, 0x00, 0x00,",
text! "\t0x00, 0x00, 0x00, 0x00, 0x00, 0x00, 0x00, 0x00,",
text! "\t0x00, 0x00, 0x00, 0x00, 0x00, 0x00, 0x00, 0x00,",
text! "\t0x00, 0x00, 0x00, 0x00, 0x00, 0x00, 0x00, 0x00,",
text! "\t0x00, 0x00, 0x00, 0x00, 0x00, 0x00, 0x00, 0x00,",
text! "\t// block 0x0065",
text! "\t0x00, 0x00, 0x00, 0x00, 0x00, 0x00, 0x00, 0x00,",
text! "\t0x00, 0x00, 0x00, 0x00, 0x00, 0x00, 0x00, 0x00,",
text! "\t0x00, 0x00, 0x00, 0x00, 0x00, 0x00, 0x00, 0x00,",
text! "\t0x00, 0x00, 0x00, 0x00, 0x00, 0x00, 0x00, 0x00,",
text! "\t0x00, 0x00, 0x00, 0x00, 0x00, 0x00, 0x00, 0x00,",
text! "\t0x00, 0x00, 0x00, 0x00, 0x00, 0x00, 0x00, 0x23,",
text! "\t0x23, 0x23, 0x23, 0x00, 0x23, 0x23, 0x23, 0x23,",
text! "\t0x23, 0x23, 0x23, 0x23, 0x23, 0x23, 0x00, 0x00,",
text! "\t// block 0x0066",
text! "\t0x00, 0x00, 0x00, 0x00, 0x00, 0x00, 0x00, 0x00,"]

/-- lines 1153-1216 -/
def tableText18 : List Nat := [
text! "\t0x00, 0x00, 0x00, 0x00, 0x00, 0x00, 0x00, 0x00,",
text! "\t0x00, 0x00, 0x00, 0x00, 0x00, 0x00, 0x00, 0x00,",
text! "\t0x00, 0x00, 0x00, 0x00, 0x00, 0x00, 0x23, 0x23,",
text! "\t0x00, 0x00, 0x00, 0x00, 0x00, 0x00, 0x00, 0x00,",
text! "\t0x00, 0x00, 0x00, 0x00, 0x00, 0x00, 0x00, 0x00,",
text! "\t0x00, 0x00, 0x00, 0x00, 0x00, 0x00, 0x00, 0x00,",
text! "\t0x00, 0x00, 0x00, 0x00, 0x00, 0x00, 0x00, 0x00,",
text! "\t// block 0x0067",
text! "\t0x00, 0x00, 0x00, 0x00, 0x00, 0x00, 0x00, 0x00,",
text! "\t0x00, 0x00, 0x00, 0x00, 0x00, 0x00, 0x00, 0x00,",
text! "\t0x00, 0x00, 0x00, 0x00, 0x00, 0x00, 0x00, 0x00,",
text! "\t0x00, 0x00, 0x00, 0x00, 0x00, 0x00, 0x00, 0x00,",
text! "\t0x00, 0x00, 0x00, 0x00, 0x00, 0x00, 0x00, 0x00,",
text! "\t0x00, 0x00, 0x00, 0x00, 0x00, 0x00, 0x00, 0x00,",
text! "\t0x23, 0x23, 0x00, 0x00, 0x00, 0x00, 0x00, 0x00,",
text! "\t0x00, 0x00, 0x00, 0x00, 0x00, 0x00, 0x00, 0x00,",
text! "\t// block 0x0068",
text! "\t0x00, 0x00, 0x23, 0x00, 0x00, 0x00, 0x23, 0x00,",
text! "\t0x00, 0x00, 0x00, 0x23, 0x00, 0x00, 0x00, 0x00,",
text! "\t0x00, 0x00, 0x00, 0x00, 0x00, 0x00, 0x00, 0x00,",
text! "\t0x00, 0x00, 0x00, 0x00, 0x00, 0x00, 0x00, 0x00,",
text! "\t0x00, 0x00, 0x00, 0x0b, 0x0b, 0x23, 0x23, 0x0b,",
text! "\t0x00, 0x00, 0x00, 0x00, 0x23, 0x00, 0x00, 0x00,",
text! "\t0x00, 0x00, 0x00, 0x00, 0x00, 0x00, 0x00, 0x00,",
text! "\t0x00, 0x00, 0x00, 0x00, 0x00, 0x00, 0x00, 0x00,",
text! "\t// block 0x0069",
text! "\t0x0b, 0x0b, 0x00, 0x00, 0x00, 0x00, 0x00, 0x00,",
text! "\t0x00, 0x00, 0x00, 0x00, 0x00, 0x00, 0x00, 0x00,",
text! "\t0x00, 0x00, 0x00, 0x00, 0x00, 0x00, 0x00, 0x00,",
text! "\t0x00, 0x00, 0x00, 0x00, 0x00, 0x00, 0x00, 0x00,",
text! "\t0x00, 0x00, 0x00, 0x00, 0x00, 0x00, 0x00, 0x00,",
text! "\t0x00, 0x00, 0x00, 0x00, 0x00, 0x00, 0x00, 0x00,",
text! "\t0x00, 0x00, 0x00, 0x00, 0x0b, 0x0b, 0x0b, 0x0b,",
text! "\t0x0b, 0x0b, 0x0b, 0x0b, 0x0b, 0x0b, 0x0b, 0x0b,",
text! "\t// block 0x006a",
text! "\t0x0b, 0x0b, 0x0b, 0x0b, 0x23, 0x23, 0x00, 0x00,",
text! "\t0x00, 0x00, 0x00, 0x00, 0x00, 0x00, 0x00, 0x00,",
text! "\t0x00, 0x00, 0x00, 0x00, 0x00, 0x00, 0x00, 0x00,",
text! "\t0x00, 0x00, 0x00, 0x00, 0x00, 0x00, 0x00, 0x00,",
text! "\t0x23, 0x23, 0x23, 0x23, 0x23, 0x23, 0x23, 0x23,",
text! "\t0x23, 0x23, 0x23, 0x23, 0x23, 0x23, 0x23, 0x23,",
text! "\t0x23, 0x23, 0x00, 0x00, 0x00, 0x00, 0x00, 0x00,",
text! "\t0x00, 0x00, 0x00, 0x00, 0x00, 0x00, 0x00, 0x23,",
text! "\t// block 0x006b",
text! "\t0x00, 0x00, 0x00, 0x00, 0x00, 0x00, 0x00, 0x00,",
text! "\t0x00, 0x00, 0x00, 0x00, 0x00, 0x00, 0x00, 0x00,",
text! "\t0x00, 0x00, 0x00, 0x00, 0x00, 0x00, 0x00, 0x00,",
text! "\t0x00, 0x00, 0x00, 0x00, 0x00, 0x00, 0x00, 0x00,",
text! "\t0x00, 0x00, 0x00, 0x00, 0x00, 0x00, 0x23, 0x23,",
text! "\t0x23, 0x23, 0x23, 0x23, 0x23, 0x23, 0x00, 0x00,",
text! "\t0x00, 0x00, 0x00, 0x00, 0x00, 0x00, 0x00, 0x00,",
text! "\t0x00, 0x00, 0x00, 0x00, 0x00, 0x00, 0x00, 0x00,",
text! "\t// block 0x006c",
text! "\t0x00, 0x00, 0x00, 0x00, 0x00, 0x00, 0x00, 0x23,",
text! "\t0x23, 0x23, 0x23, 0x23, 0x23, 0x23, 0x23, 0x23,",
text! "\t0x23, 0x23, 0x0b, 0x23, 0x00, 0x00, 0x00, 0x00,",
text! "\t0x00, 0x00, 0x00, 0x00, 0x00, 0x00, 0x00, 0x00,",
text! "\t0x05, 0x05, 0x05, 0x05, 0x05, 0x05, 0x05, 0x05,",
text! "\t0x05, 0x05, 0x05, 0x05, 0x05, 0x05, 0x05, 0x05,",
text! "\t0x05, 0x05, 0x05, 0x05, 0x05, 0x05, 0x05, 0x05,",
text! "\t0x05, 0x05, 0x05, 0x05, 0x05, 0x00, 0x00, 0x00,",
text! "\t// block 0x006d",
text! "\t0x23, 0x23, 0x23, 0x0b, 0x00, 0x00, 0x00, 0x00,",
text! "\t0x00, 0x10, 0x10, 0x10, 0x00, 0x00, 0x00, 0x10,"]

/-- lines 1217-1280 -/
def tableText19 : List Nat := [
text! "\t0x10, 0x10, 0x10, 0x10, 0x10, 0x10, 0x10, 0x10,",
text! "\t0x10, 0x10, 0x10, 0x10, 0x10, 0x10, 0x10, 0x10,",
text! "\t0x10, 0x10, 0x10, 0x10, 0x10, 0x10, 0x10, 0x10,",
text! "\t0x10, 0x10, 0x10, 0x10, 0x10, 0x10, 0x10, 0x10,",
text! "\t0x10, 0x10, 0x10, 0x23, 0x0b, 0x0b, 0x23, 0x23,",
text! "\t0x23, 0x23, 0x0b, 0x0b, 0x23, 0x23, 0x0b, 0x0b,",
text! "\t// block 0x006e",
text! "\t0x33, 0x00, 0x00, 0x00, 0x00, 0x00, 0x00, 0x00,",
text! "\t0x00, 0x00, 0x00, 0x00, 0x00, 0x00, 0x00, 0x00,",
text! "\t0x00, 0x00, 0x00, 0x00, 0x00, 0x00, 0x00, 0x00,",
text! "\t0x00, 0x00, 0x00, 0x00, 0x00, 0x00, 0x00, 0x00,",
text! "\t0x10, 0x10, 0x10, 0x10, 0x10, 0x23, 0x00, 0x10,",
text! "\t0x10, 0x10, 0x10, 0x10, 0x10, 0x10, 0x10, 0x10,",
text! "\t0x00, 0x00, 0x00, 0x00, 0x00, 0x00, 0x00, 0x00,",
text! "\t0x00, 0x00, 0x10, 0x10, 0x10, 0x10, 0x10, 0x00,",
text! "\t// block 0x006f",
text! "\t0x00, 0x00, 0x00, 0x00, 0x00, 0x00, 0x00, 0x00,",
text! "\t0x00, 0x00, 0x00, 0x00, 0x00, 0x00, 0x00, 0x00,",
text! "\t0x00, 0x00, 0x00, 0x00, 0x00, 0x00, 0x00, 0x00,",
text! "\t0x00, 0x00, 0x00, 0x00, 0x00, 0x00, 0x00, 0x00,",
text! "\t0x00, 0x00, 0x00, 0x00, 0x00, 0x00, 0x00, 0x00,",
text! "\t0x00, 0x23, 0x23, 0x23, 0x23, 0x23, 0x23, 0x0b,",
text! "\t0x0b, 0x23, 0x23, 0x0b, 0x0b, 0x23, 0x23, 0x00,",
text! "\t0x00, 0x00, 0x00, 0x00, 0x00, 0x00, 0x00, 0x00,",
text! "\t// block 0x0070",
text! "\t0x00, 0x00, 0x00, 0x23, 0x00, 0x00, 0x00, 0x00,",
text! "\t0x00, 0x00, 0x00, 0x00, 0x23, 0x0b, 0x00, 0x00,",
text! "\t0x00, 0x00, 0x00, 0x00, 0x00, 0x00, 0x00, 0x00,",
text! "\t0x00, 0x00, 0x00, 0x00, 0x00, 0x00, 0x00, 0x00,",
text! "\t0x10, 0x10, 0x10, 0x10, 0x10, 0x10, 0x10, 0x10,",
text! "\t0x10, 0x10, 0x10, 0x10, 0x10, 0x10, 0x10, 0x10,",
text! "\t0x00, 0x10, 0x10, 0x10, 0x00, 0x00, 0x00, 0x00,",
text! "\t0x00, 0x00, 0x10, 0x00, 0x23, 0x00, 0x10, 0x10,",
text! "\t// block 0x0071",
text! "\t0x00, 0x00, 0x00, 0x00, 0x00, 0x00, 0x00, 0x00,",
text! "\t0x00, 0x00, 0x00, 0x00, 0x00, 0x00, 0x00, 0x00,",
text! "\t0x00, 0x00, 0x00, 0x00, 0x00, 0x00, 0x00, 0x00,",
text! "\t0x00, 0x00, 0x00, 0x00, 0x00, 0x00, 0x00, 0x00,",
text! "\t0x00, 0x00, 0x00, 0x00, 0x00, 0x00, 0x00, 0x00,",
text! "\t0x00, 0x00, 0x00, 0x00, 0x00, 0x00, 0x00, 0x00,",
text! "\t0x23, 0x00, 0x23, 0x23, 0x23, 0x00, 0x00, 0x23,",
text! "\t0x23, 0x00, 0x00, 0x00, 0x00, 0x00, 0x23, 0x23,",
text! "\t// block 0x0072",
text! "\t0x00, 0x23, 0x00, 0x00, 0x00, 0x00, 0x00, 0x00,",
text! "\t0x00, 0x00, 0x00, 0x00, 0x00, 0x00, 0x00, 0x00,",
text! "\t0x00, 0x00, 0x00, 0x00, 0x00, 0x00, 0x00, 0x00,",
text! "\t0x00, 0x00, 0x00, 0x00, 0x00, 0x00, 0x00, 0x00,",
text! "\t0x10, 0x10, 0x10, 0x10, 0x10, 0x10, 0x10, 0x10,",
text! "\t0x10, 0x10, 0x10, 0x0b, 0x23, 0x23, 0x0b, 0x0b,",
text! "\t0x00, 0x00, 0x00, 0x00, 0x00, 0x0b, 0x33, 0x00,",
text! "\t0x00, 0x00, 0x00, 0x00, 0x00, 0x00, 0x00, 0x00,",
text! "\t// block 0x0073",
text! "\t0x10, 0x10, 0x10, 0x10, 0x10, 0x10, 0x10, 0x10,",
text! "\t0x10, 0x10, 0x10, 0x10, 0x10, 0x10, 0x10, 0x10,",
text! "\t0x10, 0x10, 0x10, 0x10, 0x10, 0x10, 0x10, 0x10,",
text! "\t0x10, 0x10, 0x10, 0x00, 0x00, 0x00, 0x00, 0x00,",
text! "\t0x00, 0x00, 0x00, 0x0b, 0x0b, 0x23, 0x0b, 0x0b,",
text! "\t0x23, 0x0b, 0x0b, 0x00, 0x0b, 0x23, 0x00, 0x00,",
text! "\t0x00, 0x00, 0x00, 0x00, 0x00, 0x00, 0x00, 0x00,",
text! "\t0x00, 0x00, 0x00, 0x00, 0x00, 0x00, 0x00, 0x00,",
text! "\t// block 0x0074",
text! "\t0x07, 0x08, 0x08, 0x08, 0x08, 0x08, 0x08, 0x08,",
text! "\t0x08, 0x08, 0x08, 0x08, 0x08, 0x08, 0x08, 0x08,",
text! "\t0x08, 0x08, 0x08, 0x08, 0x08, 0x08, 0x08, 0x08,"]

/-- lines 1281-1344 -/
def tableText20 : List Nat := [
text! "\t0x08, 0x08, 0x08, 0x08, 0x07, 0x08, 0x08, 0x08,",
text! "\t0x08, 0x08, 0x08, 0x08, 0x08, 0x08, 0x08, 0x08,",
text! "\t0x08, 0x08, 0x08, 0x08, 0x08, 0x08, 0x08, 0x08,",
text! "\t0x08, 0x08, 0x08, 0x08, 0x08, 0x08, 0x08, 0x08,",
text! "\t0x07, 0x08, 0x08, 0x08, 0x08, 0x08, 0x08, 0x08,",
text! "\t// block 0x0075",
text! "\t0x08, 0x08, 0x08, 0x08, 0x08, 0x08, 0x08, 0x08,",
text! "\t0x08, 0x08, 0x08, 0x08, 0x08, 0x08, 0x08, 0x08,",
text! "\t0x08, 0x08, 0x08, 0x08, 0x07, 0x08, 0x08, 0x08,",
text! "\t0x08, 0x08, 0x08, 0x08, 0x08, 0x08, 0x08, 0x08,",
text! "\t0x08, 0x08, 0x08, 0x08, 0x08, 0x08, 0x08, 0x08,",
text! "\t0x08, 0x08, 0x08, 0x08, 0x08, 0x08, 0x08, 0x08,",
text! "\t0x07, 0x08, 0x08, 0x08, 0x08, 0x08, 0x08, 0x08,",
text! "\t0x08, 0x08, 0x08, 0x08, 0x08, 0x08, 0x08, 0x08,",
text! "\t// block 0x0076",
text! "\t0x08, 0x08, 0x08, 0x08, 0x08, 0x08, 0x08, 0x08,",
text! "\t0x08, 0x08, 0x08, 0x08, 0x07, 0x08, 0x08, 0x08,",
text! "\t0x08, 0x08, 0x08, 0x08, 0x08, 0x08, 0x08, 0x08,",
text! "\t0x08, 0x08, 0x08, 0x08, 0x08, 0x08, 0x08, 0x08,",
text! "\t0x08, 0x08, 0x08, 0x08, 0x08, 0x08, 0x08, 0x08,",
text! "\t0x07, 0x08, 0x08, 0x08, 0x08, 0x08, 0x08, 0x08,",
text! "\t0x08, 0x08, 0x08, 0x08, 0x08, 0x08, 0x08, 0x08,",
text! "\t0x08, 0x08, 0x08, 0x08, 0x08, 0x08, 0x08, 0x08,",
text! "\t// block 0x0077",
text! "\t0x08, 0x08, 0x08, 0x08, 0x07, 0x08, 0x08, 0x08,",
text! "\t0x08, 0x08, 0x08, 0x08, 0x08, 0x08, 0x08, 0x08,",
text! "\t0x08, 0x08, 0x08, 0x08, 0x08, 0x08, 0x08, 0x08,",
text! "\t0x08, 0x08, 0x08, 0x08, 0x08, 0x08, 0x08, 0x08,",
text! "\t0x07, 0x08, 0x08, 0x08, 0x08, 0x08, 0x08, 0x08,",
text! "\t0x08, 0x08, 0x08, 0x08, 0x08, 0x08, 0x08, 0x08,",
text! "\t0x08, 0x08, 0x08, 0x08, 0x08, 0x08, 0x08, 0x08,",
text! "\t0x08, 0x08, 0x08, 0x08, 0x07, 0x08, 0x08, 0x08,",
text! "\t// block 0x0078",
text! "\t0x08, 0x08, 0x08, 0x08, 0x08, 0x08, 0x08, 0x08,",
text! "\t0x08, 0x08, 0x08, 0x08, 0x08, 0x08, 0x08, 0x08,",
text! "\t0x08, 0x08, 0x08, 0x08, 0x08, 0x08, 0x08, 0x08,",
text! "\t0x07, 0x08, 0x08, 0x08, 0x08, 0x08, 0x08, 0x08,",
text! "\t0x08, 0x08, 0x08, 0x08, 0x08, 0x08, 0x08, 0x08,",
text! "\t0x08, 0x08, 0x08, 0x08, 0x08, 0x08, 0x08, 0x08,",
text! "\t0x08, 0x08, 0x08, 0x08, 0x07, 0x08, 0x08, 0x08,",
text! "\t0x08, 0x08, 0x08, 0x08, 0x08, 0x08, 0x08, 0x08,",
text! "\t// block 0x0079",
text! "\t0x08, 0x08, 0x08, 0x08, 0x08, 0x08, 0x08, 0x08,",
text! "\t0x08, 0x08, 0x08, 0x08, 0x08, 0x08, 0x08, 0x08,",
text! "\t0x07, 0x08, 0x08, 0x08, 0x08, 0x08, 0x08, 0x08,",
text! "\t0x08, 0x08, 0x08, 0x08, 0x08, 0x08, 0x08, 0x08,",
text! "\t0x08, 0x08, 0x08, 0x08, 0x08, 0x08, 0x08, 0x08,",
text! "\t0x08, 0x08, 0x08, 0x08, 0x07, 0x08, 0x08, 0x08,",
text! "\t0x08, 0x08, 0x08, 0x08, 0x08, 0x08, 0x08, 0x08,",
text! "\t0x08, 0x08, 0x08, 0x08, 0x08, 0x08, 0x08, 0x08,",
text! "\t// block 0x007a",
text! "\t0x08, 0x08, 0x08, 0x08, 0x08, 0x08, 0x08, 0x08,",
text! "\t0x07, 0x08, 0x08, 0x08, 0x08, 0x08, 0x08, 0x08,",
text! "\t0x08, 0x08, 0x08, 0x08, 0x08, 0x08, 0x08, 0x08,",
text! "\t0x08, 0x08, 0x08, 0x08, 0x08, 0x08, 0x08, 0x08,",
text! "\t0x08, 0x08, 0x08, 0x08, 0x07, 0x08, 0x08, 0x08,",
text! "\t0x08, 0x08, 0x08, 0x08, 0x08, 0x08, 0x08, 0x08,",
text! "\t0x08, 0x08, 0x08, 0x08, 0x08, 0x08, 0x08, 0x08,",
text! "\t0x08, 0x08, 0x08, 0x08, 0x08, 0x08, 0x08, 0x08,",
text! "\t// block 0x007b",
text! "\t0x08, 0x08, 0x08, 0x08, 0x08, 0x08, 0x08, 0x08,",
text! "\t0x07, 0x08, 0x08, 0x08, 0x08, 0x08, 0x08, 0x08,",
text! "\t0x08, 0x08, 0x08, 0x08, 0x08, 0x08, 0x08, 0x08,",
text! "\t0x08, 0x08, 0x08, 0x08, 0x08, 0x08, 0x08, 0x08,"]

/-- lines 1345-1408 -/
def tableText21 : List Nat := [
text! "\t0x08, 0x08, 0x08, 0x08, 0x00, 0x00, 0x00, 0x00,",
text! "\t0x00, 0x00, 0x00, 0x00, 0x00, 0x00, 0x00, 0x00,",
text! "\t0x0d, 0x0d, 0x0d, 0x0d, 0x0d, 0x0d, 0x0d, 0x0d,",
text! "\t0x0d, 0x0d, 0x0d, 0x0d, 0x0d, 0x0d, 0x0d, 0x0d,",
text! "\t// block 0x007c",
text! "\t0x0d, 0x0d, 0x0d, 0x0d, 0x0d, 0x0d, 0x0d, 0x00,",
text! "\t0x00, 0x00, 0x00, 0x0c, 0x0c, 0x0c, 0x0c, 0x0c,",
text! "\t0x0c, 0x0c, 0x0c, 0x0c, 0x0c, 0x0c, 0x0c, 0x0c,",
text! "\t0x0c, 0x0c, 0x0c, 0x0c, 0x0c, 0x0c, 0x0c, 0x0c,",
text! "\t0x0c, 0x0c, 0x0c, 0x0c, 0x0c, 0x0c, 0x0c, 0x0c,",
text! "\t0x0c, 0x0c, 0x0c, 0x0c, 0x0c, 0x0c, 0x0c, 0x0c,",
text! "\t0x0c, 0x0c, 0x0c, 0x0c, 0x0c, 0x0c, 0x0c, 0x0c,",
text! "\t0x0c, 0x0c, 0x0c, 0x0c, 0x00, 0x00, 0x00, 0x00,",
text! "\t// block 0x007d",
text! "\t0x00, 0x00, 0x00, 0x00, 0x00, 0x00, 0x00, 0x00,",
text! "\t0x00, 0x00, 0x00, 0x00, 0x00, 0x00, 0x00, 0x00,",
text! "\t0x00, 0x00, 0x00, 0x00, 0x00, 0x00, 0x00, 0x00,",
text! "\t0x00, 0x00, 0x00, 0x00, 0x00, 0x00, 0x23, 0x00,",
text! "\t0x00, 0x00, 0x00, 0x00, 0x00, 0x00, 0x00, 0x00,",
text! "\t0x00, 0x00, 0x00, 0x00, 0x00, 0x00, 0x00, 0x00,",
text! "\t0x00, 0x00, 0x00, 0x00, 0x00, 0x00, 0x00, 0x00,",
text! "\t0x00, 0x00, 0x00, 0x00, 0x00, 0x00, 0x00, 0x00,",
text! "\t// block 0x007e",
text! "\t0x23, 0x23, 0x23, 0x23, 0x23, 0x23, 0x23, 0x23,",
text! "\t0x23, 0x23, 0x23, 0x23, 0x23, 0x23, 0x23, 0x23,",
text! "\t0x00, 0x00, 0x00, 0x00, 0x00, 0x00, 0x00, 0x00,",
text! "\t0x00, 0x00, 0x00, 0x00, 0x00, 0x00, 0x00, 0x00,",
text! "\t0x23, 0x23, 0x23, 0x23, 0x23, 0x23, 0x23, 0x23,",
text! "\t0x23, 0x23, 0x23, 0x23, 0x23, 0x23, 0x23, 0x23,",
text! "\t0x00, 0x00, 0x00, 0x00, 0x00, 0x00, 0x00, 0x00,",
text! "\t0x00, 0x00, 0x00, 0x00, 0x00, 0x00, 0x00, 0x00,",
text! "\t// block 0x007f",
text! "\t0x00, 0x00, 0x00, 0x00, 0x00, 0x00, 0x00, 0x00,",
text! "\t0x00, 0x00, 0x00, 0x00, 0x00, 0x00, 0x00, 0x00,",
text! "\t0x00, 0x00, 0x00, 0x00, 0x00, 0x00, 0x00, 0x00,",
text! "\t0x00, 0x00, 0x00, 0x00, 0x00, 0x00, 0x00, 0x00,",
text! "\t0x00, 0x00, 0x00, 0x00, 0x00, 0x00, 0x00, 0x00,",
text! "\t0x00, 0x00, 0x00, 0x00, 0x00, 0x00, 0x00, 0x00,",
text! "\t0x02, 0x02, 0x02, 0x02, 0x02, 0x02, 0x02, 0x02,",
text! "\t0x02, 0x02, 0x02, 0x02, 0x00, 0x00, 0x00, 0x00,",
text! "\t// block 0x0080",
text! "\t0x00, 0x00, 0x00, 0x00, 0x00, 0x00, 0x00, 0x00,",
text! "\t0x00, 0x00, 0x00, 0x00, 0x00, 0x00, 0x00, 0x00,",
text! "\t0x00, 0x00, 0x00, 0x00, 0x00, 0x00, 0x00, 0x00,",
text! "\t0x00, 0x00, 0x00, 0x00, 0x00, 0x00, 0x00, 0x00,",
text! "\t0x00, 0x00, 0x00, 0x00, 0x00, 0x00, 0x00, 0x00,",
text! "\t0x00, 0x00, 0x00, 0x00, 0x00, 0x00, 0x00, 0x00,",
text! "\t0x00, 0x00, 0x00, 0x00, 0x00, 0x00, 0x00, 0x00,",
text! "\t0x00, 0x00, 0x00, 0x00, 0x00, 0x23, 0x00, 0x00,",
text! "\t// block 0x0081",
text! "\t0x00, 0x00, 0x00, 0x00, 0x00, 0x00, 0x00, 0x00,",
text! "\t0x00, 0x00, 0x00, 0x00, 0x00, 0x00, 0x00, 0x00,",
text! "\t0x00, 0x00, 0x00, 0x00, 0x00, 0x00, 0x00, 0x00,",
text! "\t0x00, 0x00, 0x00, 0x00, 0x00, 0x00, 0x00, 0x00,",
text! "\t0x23, 0x00, 0x00, 0x00, 0x00, 0x00, 0x00, 0x00,",
text! "\t0x00, 0x00, 0x00, 0x00, 0x00, 0x00, 0x00, 0x00,",
text! "\t0x00, 0x00, 0x00, 0x00, 0x00, 0x00, 0x00, 0x00,",
text! "\t0x00, 0x00, 0x00, 0x00, 0x00, 0x00, 0x00, 0x00,",
text! "\t// block 0x0082",
text! "\t0x00, 0x00, 0x00, 0x00, 0x00, 0x00, 0x00, 0x00,",
text! "\t0x00, 0x00, 0x00, 0x00, 0x00, 0x00, 0x00, 0x00,",
text! "\t0x00, 0x00, 0x00, 0x00, 0x00, 0x00, 0x00, 0x00,",
text! "\t0x00, 0x00, 0x00, 0x00, 0x00, 0x00, 0x00, 0x00,",
text! "\t0x00, 0x00, 0x00, 0x00, 0x00, 0x00, 0x00, 0x00,"]

/-- lines 1409-1472 -/
def tableText22 : List Nat := [
text! "\t0x00, 0x00, 0x00, 0x00, 0x00, 0x00, 0x00, 0x00,",
text! "\t0x00, 0x00, 0x00, 0x00, 0x00, 0x00, 0x23, 0x23,",
text! "\t0x23, 0x23, 0x23, 0x00, 0x00, 0x00, 0x00, 0x00,",
text! "\t// block 0x0083",
text! "\t0x10, 0x23, 0x23, 0x23, 0x00, 0x23, 0x23, 0x00,",
text! "\t0x00, 0x00, 0x00, 0x00, 0x23, 0x23, 0x23, 0x23,",
text! "\t0x10, 0x10, 0x10, 0x10, 0x00, 0x10, 0x10, 0x10,",
text! "\t0x00, 0x10, 0x10, 0x10, 0x10, 0x10, 0x10, 0x10,",
text! "\t0x10, 0x10, 0x10, 0x10, 0x10, 0x10, 0x10, 0x10,",
text! "\t0x10, 0x10, 0x10, 0x10, 0x10, 0x10, 0x10, 0x10,",
text! "\t0x10, 0x10, 0x10, 0x10, 0x10, 0x10, 0x00, 0x00,",
text! "\t0x23, 0x23, 0x23, 0x00, 0x00, 0x00, 0x00, 0x33,",
text! "\t// block 0x0084",
text! "\t0x00, 0x00, 0x00, 0x00, 0x00, 0x00, 0x00, 0x00,",
text! "\t0x00, 0x00, 0x00, 0x00, 0x00, 0x00, 0x00, 0x00,",
text! "\t0x00, 0x00, 0x00, 0x00, 0x00, 0x00, 0x00, 0x00,",
text! "\t0x00, 0x00, 0x00, 0x00, 0x00, 0x00, 0x00, 0x00,",
text! "\t0x00, 0x00, 0x00, 0x00, 0x00, 0x23, 0x23, 0x00,",
text! "\t0x00, 0x00, 0x00, 0x00, 0x00, 0x00, 0x00, 0x00,",
text! "\t0x00, 0x00, 0x00, 0x00, 0x00, 0x00, 0x00, 0x00,",
text! "\t0x00, 0x00, 0x00, 0x00, 0x00, 0x00, 0x00, 0x00,",
text! "\t// block 0x0085",
text! "\t0x00, 0x00, 0x00, 0x00, 0x00, 0x00, 0x00, 0x00,",
text! "\t0x00, 0x00, 0x00, 0x00, 0x00, 0x00, 0x00, 0x00,",
text! "\t0x00, 0x00, 0x00, 0x00, 0x00, 0x00, 0x00, 0x00,",
text! "\t0x00, 0x00, 0x00, 0x00, 0x00, 0x00, 0x00, 0x00,",
text! "\t0x00, 0x00, 0x00, 0x00, 0x23, 0x23, 0x23, 0x23,",
text! "\t0x00, 0x00, 0x00, 0x00, 0x00, 0x00, 0x00, 0x00,",
text! "\t0x00, 0x00, 0x00, 0x00, 0x00, 0x00, 0x00, 0x00,",
text! "\t0x00, 0x00, 0x00, 0x00, 0x00, 0x00, 0x00, 0x00,",
text! "\t// block 0x0086",
text! "\t0x00, 0x00, 0x00, 0x00, 0x00, 0x00, 0x00, 0x00,",
text! "\t0x00, 0x00, 0x00, 0x00, 0x00, 0x00, 0x00, 0x00,",
text! "\t0x00, 0x00, 0x00, 0x00, 0x00, 0x00, 0x00, 0x00,",
text! "\t0x00, 0x00, 0x00, 0x00, 0x00, 0x00, 0x00, 0x00,",
text! "\t0x00, 0x00, 0x00, 0x00, 0x00, 0x00, 0x00, 0x00,",
text! "\t0x00, 0x23, 0x23, 0x23, 0x23, 0x23, 0x00, 0x00,",
text! "\t0x00, 0x00, 0x00, 0x00, 0x00, 0x00, 0x00, 0x00,",
text! "\t0x00, 0x00, 0x00, 0x00, 0x00, 0x00, 0x00, 0x00,",
text! "\t// block 0x0087",
text! "\t0x00, 0x00, 0x00, 0x00, 0x00, 0x00, 0x00, 0x00,",
text! "\t0x00, 0x00, 0x00, 0x00, 0x00, 0x00, 0x00, 0x00,",
text! "\t0x00, 0x00, 0x00, 0x00, 0x00, 0x00, 0x00, 0x00,",
text! "\t0x00, 0x00, 0x00, 0x00, 0x00, 0x00, 0x00, 0x00,",
text! "\t0x00, 0x00, 0x00, 0x00, 0x00, 0x00, 0x00, 0x00,",
text! "\t0x00, 0x00, 0x00, 0x23, 0x23, 0x00, 0x00, 0x00,",
text! "\t0x00, 0x00, 0x00, 0x00, 0x00, 0x00, 0x00, 0x00,",
text! "\t0x00, 0x00, 0x00, 0x00, 0x00, 0x00, 0x00, 0x00,",
text! "\t// block 0x0088",
text! "\t0x00, 0x00, 0x00, 0x00, 0x00, 0x00, 0x00, 0x00,",
text! "\t0x00, 0x00, 0x00, 0x00, 0x00, 0x00, 0x00, 0x00,",
text! "\t0x00, 0x00, 0x00, 0x00, 0x00, 0x00, 0x00, 0x00,",
text! "\t0x00, 0x00, 0x00, 0x00, 0x00, 0x00, 0x00, 0x00,",
text! "\t0x00, 0x00, 0x00, 0x00, 0x00, 0x00, 0x00, 0x00,",
text! "\t0x00, 0x00, 0x00, 0x00, 0x00, 0x00, 0x00, 0x00,",
text! "\t0x00, 0x00, 0x00, 0x00, 0x00, 0x00, 0x00, 0x00,",
text! "\t0x00, 0x00, 0x23, 0x23, 0x23, 0x23, 0x23, 0x23,",
text! "\t// block 0x0089",
text! "\t0x00, 0x00, 0x00, 0x00, 0x00, 0x00, 0x23, 0x23,",
text! "\t0x23, 0x23, 0x23, 0x23, 0x23, 0x23, 0x23, 0x23,",
text! "\t0x23, 0x00, 0x00, 0x00, 0x00, 0x00, 0x00, 0x00,",
text! "\t0x00, 0x00, 0x00, 0x00, 0x00, 0x00, 0x00, 0x00,",
text! "\t0x00, 0x00, 0x00, 0x00, 0x00, 0x00, 0x00, 0x00,",
text! "\t0x00, 0x00, 0x00, 0x00, 0x00, 0x00, 0x00, 0x00,"]

/-- lines 1473-1536 -/
def tableText23 : List Nat := [
text! "\t0x00, 0x00, 0x00, 0x00, 0x00, 0x00, 0x00, 0x00,",
text! "\t0x00, 0x00, 0x00, 0x00, 0x00, 0x00, 0x00, 0x00,",
text! "\t// block 0x008a",
text! "\t0x00, 0x00, 0x23, 0x23, 0x23, 0x23, 0x00, 0x00,",
text! "\t0x00, 0x00, 0x00, 0x00, 0x00, 0x00, 0x00, 0x00,",
text! "\t0x00, 0x00, 0x00, 0x00, 0x00, 0x00, 0x00, 0x00,",
text! "\t0x00, 0x00, 0x00, 0x00, 0x00, 0x00, 0x00, 0x00,",
text! "\t0x00, 0x00, 0x00, 0x00, 0x00, 0x00, 0x00, 0x00,",
text! "\t0x00, 0x00, 0x00, 0x00, 0x00, 0x00, 0x00, 0x00,",
text! "\t0x00, 0x00, 0x00, 0x00, 0x00, 0x00, 0x00, 0x00,",
text! "\t0x00, 0x00, 0x00, 0x00, 0x00, 0x00, 0x00, 0x00,",
text! "\t// block 0x008b",
text! "\t0x0b, 0x23, 0x0b, 0x00, 0x00, 0x00, 0x00, 0x00,",
text! "\t0x00, 0x00, 0x00, 0x00, 0x00, 0x00, 0x00, 0x00,",
text! "\t0x00, 0x00, 0x00, 0x00, 0x00, 0x00, 0x00, 0x00,",
text! "\t0x00, 0x00, 0x00, 0x00, 0x00, 0x00, 0x00, 0x00,",
text! "\t0x00, 0x00, 0x00, 0x00, 0x00, 0x00, 0x00, 0x00,",
text! "\t0x00, 0x00, 0x00, 0x00, 0x00, 0x00, 0x00, 0x00,",
text! "\t0x00, 0x00, 0x00, 0x00, 0x00, 0x00, 0x00, 0x00,",
text! "\t0x23, 0x23, 0x23, 0x23, 0x23, 0x23, 0x23, 0x23,",
text! "\t// block 0x008c",
text! "\t0x23, 0x23, 0x23, 0x23, 0x23, 0x23, 0x23, 0x00,",
text! "\t0x00, 0x00, 0x00, 0x00, 0x00, 0x00, 0x00, 0x00,",
text! "\t0x00, 0x00, 0x00, 0x00, 0x00, 0x00, 0x00, 0x00,",
text! "\t0x00, 0x00, 0x00, 0x00, 0x00, 0x00, 0x00, 0x00,",
text! "\t0x00, 0x00, 0x00, 0x00, 0x00, 0x00, 0x00, 0x00,",
text! "\t0x00, 0x00, 0x00, 0x00, 0x00, 0x00, 0x00, 0x00,",
text! "\t0x23, 0x00, 0x00, 0x23, 0x23, 0x00, 0x00, 0x00,",
text! "\t0x00, 0x00, 0x00, 0x00, 0x00, 0x00, 0x00, 0x23,",
text! "\t// block 0x008d",
text! "\t0x23, 0x23, 0x0b, 0x00, 0x00, 0x00, 0x00, 0x00,",
text! "\t0x00, 0x00, 0x00, 0x00, 0x00, 0x00, 0x00, 0x00,",
text! "\t0x00, 0x00, 0x00, 0x00, 0x00, 0x00, 0x00, 0x00,",
text! "\t0x00, 0x00, 0x00, 0x00, 0x00, 0x00, 0x00, 0x00,",
text! "\t0x00, 0x00, 0x00, 0x00, 0x00, 0x00, 0x00, 0x00,",
text! "\t0x00, 0x00, 0x00, 0x00, 0x00, 0x00, 0x00, 0x00,",
text! "\t0x0b, 0x0b, 0x0b, 0x23, 0x23, 0x23, 0x23, 0x0b,",
text! "\t0x0b, 0x23, 0x23, 0x00, 0x00, 0x09, 0x00, 0x00,",
text! "\t// block 0x008e",
text! "\t0x00, 0x00, 0x23, 0x00, 0x00, 0x00, 0x00, 0x00,",
text! "\t0x00, 0x00, 0x00, 0x00, 0x00, 0x09, 0x00, 0x00,",
text! "\t0x00, 0x00, 0x00, 0x00, 0x00, 0x00, 0x00, 0x00,",
text! "\t0x00, 0x00, 0x00, 0x00, 0x00, 0x00, 0x00, 0x00,",
text! "\t0x00, 0x00, 0x00, 0x00, 0x00, 0x00, 0x00, 0x00,",
text! "\t0x00, 0x00, 0x00, 0x00, 0x00, 0x00, 0x00, 0x00,",
text! "\t0x00, 0x00, 0x00, 0x00, 0x00, 0x00, 0x00, 0x00,",
text! "\t0x00, 0x00, 0x00, 0x00, 0x00, 0x00, 0x00, 0x00,",
text! "\t// block 0x008f",
text! "\t0x23, 0x23, 0x23, 0x10, 0x10, 0x10, 0x10, 0x10,",
text! "\t0x10, 0x10, 0x10, 0x10, 0x10, 0x10, 0x10, 0x10,",
text! "\t0x10, 0x10, 0x10, 0x10, 0x10, 0x10, 0x10, 0x10,",
text! "\t0x10, 0x10, 0x10, 0x10, 0x10, 0x10, 0x10, 0x10,",
text! "\t0x10, 0x10, 0x10, 0x10, 0x10, 0x10, 0x10, 0x23,",
text! "\t0x23, 0x23, 0x23, 0x23, 0x0b, 0x23, 0x23, 0x23,",
text! "\t0x23, 0x23, 0x23, 0x33, 0x23, 0x00, 0x00, 0x00,",
text! "\t0x00, 0x00, 0x00, 0x00, 0x00, 0x00, 0x00, 0x00,",
text! "\t// block 0x0090",
text! "\t0x00, 0x00, 0x00, 0x00, 0x10, 0x0b, 0x0b, 0x10,",
text! "\t0x00, 0x00, 0x00, 0x00, 0x00, 0x00, 0x00, 0x00,",
text! "\t0x00, 0x00, 0x00, 0x00, 0x00, 0x00, 0x00, 0x00,",
text! "\t0x00, 0x00, 0x00, 0x00, 0x00, 0x00, 0x00, 0x00,",
text! "\t0x00, 0x00, 0x00, 0x00, 0x00, 0x00, 0x00, 0x00,",
text! "\t0x00, 0x00, 0x00, 0x00, 0x00, 0x00, 0x00, 0x00,",
text! "\t0x00, 0x00, 0x00, 0x23, 0x00, 0x00, 0x00, 0x00,"]

/-- lines 1537-1600 -/
def tableText24 : List Nat := [
text! "\t0x00, 0x00, 0x00, 0x00, 0x00, 0x00, 0x00, 0x00,",
text! "\t// block 0x0091",
text! "\t0x23, 0x23, 0x0b, 0x00, 0x00, 0x00, 0x00, 0x00,",
text! "\t0x00, 0x00, 0x00, 0x00, 0x00, 0x00, 0x00, 0x00,",
text! "\t0x00, 0x00, 0x00, 0x00, 0x00, 0x00, 0x00, 0x00,",
text! "\t0x00, 0x00, 0x00, 0x00, 0x00, 0x00, 0x00, 0x00,",
text! "\t0x00, 0x00, 0x00, 0x00, 0x00, 0x00, 0x00, 0x00,",
text! "\t0x00, 0x00, 0x00, 0x00, 0x00, 0x00, 0x00, 0x00,",
text! "\t0x00, 0x00, 0x00, 0x0b, 0x0b, 0x0b, 0x23, 0x23,",
text! "\t0x23, 0x23, 0x23, 0x23, 0x23, 0x23, 0x23, 0x0b,",
text! "\t// block 0x0092",
text! "\t0x23, 0x00, 0x09, 0x09, 0x00, 0x00, 0x00, 0x00,",
text! "\t0x00, 0x23, 0x23, 0x23, 0x23, 0x00, 0x0b, 0x23,",
text! "\t0x00, 0x00, 0x00, 0x00, 0x00, 0x00, 0x00, 0x00,",
text! "\t0x00, 0x00, 0x00, 0x00, 0x00, 0x00, 0x00, 0x00,",
text! "\t0x00, 0x00, 0x00, 0x00, 0x00, 0x00, 0x00, 0x00,",
text! "\t0x00, 0x00, 0x00, 0x00, 0x00, 0x00, 0x00, 0x00,",
text! "\t0x00, 0x00, 0x00, 0x00, 0x00, 0x00, 0x00, 0x00,",
text! "\t0x00, 0x00, 0x00, 0x00, 0x00, 0x00, 0x00, 0x00,",
text! "\t// block 0x0093",
text! "\t0x00, 0x00, 0x00, 0x00, 0x00, 0x00, 0x00, 0x00,",
text! "\t0x00, 0x00, 0x00, 0x00, 0x00, 0x00, 0x00, 0x00,",
text! "\t0x00, 0x00, 0x00, 0x00, 0x00, 0x00, 0x00, 0x00,",
text! "\t0x00, 0x00, 0x00, 0x00, 0x00, 0x00, 0x00, 0x00,",
text! "\t0x00, 0x00, 0x00, 0x00, 0x00, 0x00, 0x00, 0x00,",
text! "\t0x00, 0x00, 0x00, 0x00, 0x0b, 0x0b, 0x0b, 0x23,",
text! "\t0x23, 0x23, 0x0b, 0x0b, 0x23, 0x23, 0x23, 0x23,",
text! "\t0x00, 0x00, 0x00, 0x00, 0x00, 0x00, 0x23, 0x00,",
text! "\t// block 0x0094",
text! "\t0x00, 0x23, 0x00, 0x00, 0x00, 0x00, 0x00, 0x00,",
text! "\t0x00, 0x00, 0x00, 0x00, 0x00, 0x00, 0x00, 0x00,",
text! "\t0x00, 0x00, 0x00, 0x00, 0x00, 0x00, 0x00, 0x00,",
text! "\t0x00, 0x00, 0x00, 0x00, 0x00, 0x00, 0x00, 0x00,",
text! "\t0x00, 0x00, 0x00, 0x00, 0x00, 0x00, 0x00, 0x00,",
text! "\t0x00, 0x00, 0x00, 0x00, 0x00, 0x00, 0x00, 0x00,",
text! "\t0x00, 0x00, 0x00, 0x00, 0x00, 0x00, 0x00, 0x00,",
text! "\t0x00, 0x00, 0x00, 0x00, 0x00, 0x00, 0x00, 0x00,",
text! "\t// block 0x0095",
text! "\t0x00, 0x00, 0x00, 0x00, 0x00, 0x00, 0x00, 0x00,",
text! "\t0x00, 0x00, 0x00, 0x00, 0x00, 0x00, 0x00, 0x00,",
text! "\t0x00, 0x00, 0x00, 0x00, 0x00, 0x00, 0x00, 0x00,",
text! "\t0x00, 0x00, 0x00, 0x00, 0x00, 0x00, 0x00, 0x23,",
text! "\t0x0b, 0x0b, 0x0b, 0x23, 0x23, 0x23, 0x23, 0x23,",
text! "\t0x23, 0x23, 0x23, 0x00, 0x00, 0x00, 0x00, 0x00,",
text! "\t0x00, 0x00, 0x00, 0x00, 0x00, 0x00, 0x00, 0x00,",
text! "\t0x00, 0x00, 0x00, 0x00, 0x00, 0x00, 0x00, 0x00,",
text! "\t// block 0x0096",
text! "\t0x23, 0x23, 0x0b, 0x0b, 0x00, 0x00, 0x00, 0x00,",
text! "\t0x00, 0x00, 0x00, 0x00, 0x00, 0x00, 0x00, 0x00,",
text! "\t0x00, 0x00, 0x00, 0x00, 0x00, 0x00, 0x00, 0x00,",
text! "\t0x00, 0x00, 0x00, 0x00, 0x00, 0x00, 0x00, 0x00,",
text! "\t0x00, 0x00, 0x00, 0x00, 0x00, 0x00, 0x00, 0x00,",
text! "\t0x00, 0x00, 0x00, 0x00, 0x00, 0x00, 0x00, 0x00,",
text! "\t0x00, 0x00, 0x00, 0x00, 0x00, 0x00, 0x00, 0x00,",
text! "\t0x00, 0x00, 0x00, 0x23, 0x23, 0x00, 0x23, 0x0b,",
text! "\t// block 0x0097",
text! "\t0x23, 0x0b, 0x0b, 0x0b, 0x0b, 0x00, 0x00, 0x0b,",
text! "\t0x0b, 0x00, 0x00, 0x0b, 0x0b, 0x23, 0x00, 0x00,",
text! "\t0x00, 0x00, 0x00, 0x00, 0x00, 0x00, 0x00, 0x23,",
text! "\t0x00, 0x00, 0x00, 0x00, 0x00, 0x00, 0x00, 0x00,",
text! "\t0x00, 0x00, 0x0b, 0x0b, 0x00, 0x00, 0x23, 0x23,",
text! "\t0x23, 0x23, 0x23, 0x23, 0x23, 0x00, 0x00, 0x00,",
text! "\t0x23, 0x23, 0x23, 0x23, 0x23, 0x00, 0x00, 0x00,",
text! "\t0x00, 0x00, 0x00, 0x00, 0x00, 0x00, 0x00, 0x00,"]

/-- lines 1601-1664 -/
def tableText25 : List Nat := [
text! "\t// block 0x0098",
text! "\t0x10, 0x10, 0x10, 0x10, 0x10, 0x10, 0x10, 0x10,",
text! "\t0x10, 0x10, 0x00, 0x10, 0x00, 0x00, 0x10, 0x00,",
text! "\t0x10, 0x10, 0x10, 0x10, 0x10, 0x10, 0x10, 0x10,",
text! "\t0x10, 0x10, 0x10, 0x10, 0x10, 0x10, 0x10, 0x10,",
text! "\t0x10, 0x10, 0x10, 0x10, 0x10, 0x10, 0x10, 0x10,",
text! "\t0x10, 0x10, 0x10, 0x10, 0x10, 0x10, 0x10, 0x10,",
text! "\t0x10, 0x10, 0x10, 0x10, 0x10, 0x10, 0x00, 0x00,",
text! "\t0x23, 0x0b, 0x0b, 0x23, 0x23, 0x23, 0x23, 0x23,",
text! "\t// block 0x0099",
text! "\t0x23, 0x00, 0x23, 0x00, 0x00, 0x23, 0x00, 0x23,",
text! "\t0x23, 0x23, 0x0b, 0x00, 0x0b, 0x0b, 0x23, 0x23,",
text! "\t0x33, 0x09, 0x23, 0x00, 0x00, 0x00, 0x00, 0x00,",
text! "\t0x00, 0x00, 0x00, 0x00, 0x00, 0x00, 0x00, 0x00,",
text! "\t0x00, 0x23, 0x23, 0x00, 0x00, 0x00, 0x00, 0x00,",
text! "\t0x00, 0x00, 0x00, 0x00, 0x00, 0x00, 0x00, 0x00,",
text! "\t0x00, 0x00, 0x00, 0x00, 0x00, 0x00, 0x00, 0x00,",
text! "\t0x00, 0x00, 0x00, 0x00, 0x00, 0x00, 0x00, 0x00,",
text! "\t// block 0x009a",
text! "\t0x00, 0x00, 0x00, 0x00, 0x00, 0x00, 0x00, 0x00,",
text! "\t0x00, 0x00, 0x00, 0x00, 0x00, 0x00, 0x00, 0x00,",
text! "\t0x00, 0x00, 0x00, 0x00, 0x00, 0x00, 0x00, 0x00,",
text! "\t0x00, 0x00, 0x00, 0x00, 0x00, 0x00, 0x00, 0x00,",
text! "\t0x00, 0x00, 0x00, 0x00, 0x00, 0x00, 0x00, 0x00,",
text! "\t0x00, 0x00, 0x00, 0x00, 0x00, 0x00, 0x00, 0x00,",
text! "\t0x00, 0x00, 0x00, 0x00, 0x00, 0x0b, 0x0b, 0x0b,",
text! "\t0x23, 0x23, 0x23, 0x23, 0x23, 0x23, 0x23, 0x23,",
text! "\t// block 0x009b",
text! "\t0x0b, 0x0b, 0x23, 0x23, 0x23, 0x0b, 0x23, 0x00,",
text! "\t0x00, 0x00, 0x00, 0x00, 0x00, 0x00, 0x00, 0x00,",
text! "\t0x00, 0x00, 0x00, 0x00, 0x00, 0x00, 0x00, 0x00,",
text! "\t0x00, 0x00, 0x00, 0x00, 0x00, 0x00, 0x23, 0x00,",
text! "\t0x00, 0x00, 0x00, 0x00, 0x00, 0x00, 0x00, 0x00,",
text! "\t0x00, 0x00, 0x00, 0x00, 0x00, 0x00, 0x00, 0x00,",
text! "\t0x00, 0x00, 0x00, 0x00, 0x00, 0x00, 0x00, 0x00,",
text! "\t0x00, 0x00, 0x00, 0x00, 0x00, 0x00, 0x00, 0x00,",
text! "\t// block 0x009c",
text! "\t0x00, 0x00, 0x00, 0x00, 0x00, 0x00, 0x00, 0x00,",
text! "\t0x00, 0x00, 0x00, 0x00, 0x00, 0x00, 0x00, 0x00,",
text! "\t0x00, 0x00, 0x00, 0x00, 0x00, 0x00, 0x00, 0x00,",
text! "\t0x00, 0x00, 0x00, 0x00, 0x00, 0x00, 0x00, 0x00,",
text! "\t0x00, 0x00, 0x00, 0x00, 0x00, 0x00, 0x00, 0x00,",
text! "\t0x00, 0x00, 0x00, 0x00, 0x00, 0x00, 0x00, 0x00,",
text! "\t0x23, 0x0b, 0x0b, 0x23, 0x23, 0x23, 0x23, 0x23,",
text! "\t0x23, 0x0b, 0x23, 0x0b, 0x0b, 0x23, 0x0b, 0x23,",
text! "\t// block 0x009d",
text! "\t0x23, 0x0b, 0x23, 0x23, 0x00, 0x00, 0x00, 0x00,",
text! "\t0x00, 0x00, 0x00, 0x00, 0x00, 0x00, 0x00, 0x00,",
text! "\t0x00, 0x00, 0x00, 0x00, 0x00, 0x00, 0x00, 0x00,",
text! "\t0x00, 0x00, 0x00, 0x00, 0x00, 0x00, 0x00, 0x00,",
text! "\t0x00, 0x00, 0x00, 0x00, 0x00, 0x00, 0x00, 0x00,",
text! "\t0x00, 0x00, 0x00, 0x00, 0x00, 0x00, 0x00, 0x00,",
text! "\t0x00, 0x00, 0x00, 0x00, 0x00, 0x00, 0x00, 0x00,",
text! "\t0x00, 0x00, 0x00, 0x00, 0x00, 0x00, 0x00, 0x00,",
text! "\t// block 0x009e",
text! "\t0x00, 0x00, 0x00, 0x00, 0x00, 0x00, 0x00, 0x00,",
text! "\t0x00, 0x00, 0x00, 0x00, 0x00, 0x00, 0x00, 0x00,",
text! "\t0x00, 0x00, 0x00, 0x00, 0x00, 0x00, 0x00, 0x00,",
text! "\t0x00, 0x00, 0x00, 0x00, 0x00, 0x00, 0x00, 0x00,",
text! "\t0x00, 0x00, 0x00, 0x00, 0x00, 0x00, 0x00, 0x00,",
text! "\t0x00, 0x00, 0x00, 0x00, 0x00, 0x00, 0x00, 0x23,",
text! "\t0x0b, 0x0b, 0x23, 0x23, 0x23, 0x23, 0x00, 0x00,",
text! "\t0x0b, 0x0b, 0x0b, 0x0b, 0x23, 0x23, 0x0b, 0x23,",
text! "\t// block 0x009f"]

/-- lines 1665-1728 -/
def tableText26 : List Nat := [
text! "\t0x23, 0x00, 0x00, 0x00, 0x00, 0x00, 0x00, 0x00,",
text! "\t0x00, 0x00, 0x00, 0x00, 0x00, 0x00, 0x00, 0x00,",
text! "\t0x00, 0x00, 0x00, 0x00, 0x00, 0x00, 0x00, 0x00,",
text! "\t0x00, 0x00, 0x00, 0x00, 0x23, 0x23, 0x00, 0x00,",
text! "\t0x00, 0x00, 0x00, 0x00, 0x00, 0x00, 0x00, 0x00,",
text! "\t0x00, 0x00, 0x00, 0x00, 0x00, 0x00, 0x00, 0x00,",
text! "\t0x00, 0x00, 0x00, 0x00, 0x00, 0x00, 0x00, 0x00,",
text! "\t0x00, 0x00, 0x00, 0x00, 0x00, 0x00, 0x00, 0x00,",
text! "\t// block 0x00a0",
text! "\t0x00, 0x00, 0x00, 0x00, 0x00, 0x00, 0x00, 0x00,",
text! "\t0x00, 0x00, 0x00, 0x00, 0x00, 0x00, 0x00, 0x00,",
text! "\t0x00, 0x00, 0x00, 0x00, 0x00, 0x00, 0x00, 0x00,",
text! "\t0x00, 0x00, 0x00, 0x00, 0x00, 0x00, 0x00, 0x00,",
text! "\t0x00, 0x00, 0x00, 0x00, 0x00, 0x00, 0x00, 0x00,",
text! "\t0x00, 0x00, 0x00, 0x00, 0x00, 0x00, 0x00, 0x00,",
text! "\t0x0b, 0x0b, 0x0b, 0x23, 0x23, 0x23, 0x23, 0x23,",
text! "\t0x23, 0x23, 0x23, 0x0b, 0x0b, 0x23, 0x0b, 0x23,",
text! "\t// block 0x00a1",
text! "\t0x23, 0x00, 0x00, 0x00, 0x00, 0x00, 0x00, 0x00,",
text! "\t0x00, 0x00, 0x00, 0x00, 0x00, 0x00, 0x00, 0x00,",
text! "\t0x00, 0x00, 0x00, 0x00, 0x00, 0x00, 0x00, 0x00,",
text! "\t0x00, 0x00, 0x00, 0x00, 0x00, 0x00, 0x00, 0x00,",
text! "\t0x00, 0x00, 0x00, 0x00, 0x00, 0x00, 0x00, 0x00,",
text! "\t0x00, 0x00, 0x00, 0x00, 0x00, 0x00, 0x00, 0x00,",
text! "\t0x00, 0x00, 0x00, 0x00, 0x00, 0x00, 0x00, 0x00,",
text! "\t0x00, 0x00, 0x00, 0x00, 0x00, 0x00, 0x00, 0x00,",
text! "\t// block 0x00a2",
text! "\t0x00, 0x00, 0x00, 0x00, 0x00, 0x00, 0x00, 0x00,",
text! "\t0x00, 0x00, 0x00, 0x00, 0x00, 0x00, 0x00, 0x00,",
text! "\t0x00, 0x00, 0x00, 0x00, 0x00, 0x00, 0x00, 0x00,",
text! "\t0x00, 0x00, 0x00, 0x00, 0x00, 0x00, 0x00, 0x00,",
text! "\t0x00, 0x00, 0x00, 0x00, 0x00, 0x00, 0x00, 0x00,",
text! "\t0x00, 0x00, 0x00, 0x23, 0x0b, 0x23, 0x0b, 0x0b,",
text! "\t0x23, 0x23, 0x23, 0x23, 0x23, 0x23, 0x23, 0x23,",
text! "\t0x00, 0x00, 0x00, 0x00, 0x00, 0x00, 0x00, 0x00,",
text! "\t// block 0x00a3",
text! "\t0x00, 0x00, 0x00, 0x00, 0x00, 0x00, 0x00, 0x00,",
text! "\t0x00, 0x00, 0x00, 0x00, 0x00, 0x00, 0x00, 0x00,",
text! "\t0x00, 0x00, 0x00, 0x00, 0x00, 0x00, 0x00, 0x00,",
text! "\t0x00, 0x00, 0x00, 0x00, 0x00, 0x23, 0x0b, 0x23,",
text! "\t0x00, 0x00, 0x23, 0x23, 0x23, 0x23, 0x0b, 0x23,",
text! "\t0x23, 0x23, 0x23, 0x23, 0x00, 0x00, 0x00, 0x00,",
text! "\t0x00, 0x00, 0x00, 0x00, 0x00, 0x00, 0x00, 0x00,",
text! "\t0x00, 0x00, 0x00, 0x00, 0x00, 0x00, 0x00, 0x00,",
text! "\t// block 0x00a4",
text! "\t0x00, 0x00, 0x00, 0x00, 0x00, 0x00, 0x00, 0x00,",
text! "\t0x00, 0x00, 0x00, 0x00, 0x00, 0x00, 0x00, 0x00,",
text! "\t0x00, 0x00, 0x00, 0x00, 0x00, 0x00, 0x00, 0x00,",
text! "\t0x00, 0x00, 0x00, 0x00, 0x00, 0x00, 0x00, 0x00,",
text! "\t0x00, 0x00, 0x00, 0x00, 0x00, 0x00, 0x00, 0x00,",
text! "\t0x00, 0x00, 0x00, 0x00, 0x0b, 0x0b, 0x0b, 0x23,",
text! "\t0x23, 0x23, 0x23, 0x23, 0x23, 0x23, 0x23, 0x23,",
text! "\t0x0b, 0x23, 0x23, 0x00, 0x00, 0x00, 0x00, 0x00,",
text! "\t// block 0x00a5",
text! "\t0x10, 0x10, 0x10, 0x10, 0x10, 0x10, 0x10, 0x00,",
text! "\t0x00, 0x10, 0x00, 0x00, 0x10, 0x10, 0x10, 0x10,",
text! "\t0x10, 0x10, 0x10, 0x10, 0x00, 0x10, 0x10, 0x00,",
text! "\t0x10, 0x10, 0x10, 0x10, 0x10, 0x10, 0x10, 0x10,",
text! "\t0x10, 0x10, 0x10, 0x10, 0x10, 0x10, 0x10, 0x10,",
text! "\t0x10, 0x10, 0x10, 0x10, 0x10, 0x10, 0x10, 0x10,",
text! "\t0x23, 0x0b, 0x0b, 0x0b, 0x0b, 0x0b, 0x00, 0x0b,",
text! "\t0x0b, 0x00, 0x00, 0x23, 0x23, 0x23, 0x33, 0x09,",
text! "\t// block 0x00a6",
text! "\t0x0b, 0x09, 0x0b, 0x23, 0x00, 0x00, 0x00, 0x00,"]

/-- lines 1729-1792 -/
def tableText27 : List Nat := [
text! "\t0x00, 0x00, 0x00, 0x00, 0x00, 0x00, 0x00, 0x00,",
text! "\t0x00, 0x00, 0x00, 0x00, 0x00, 0x00, 0x00, 0x00,",
text! "\t0x00, 0x00, 0x00, 0x00, 0x00, 0x00, 0x00, 0x00,",
text! "\t0x00, 0x00, 0x00, 0x00, 0x00, 0x00, 0x00, 0x00,",
text! "\t0x00, 0x00, 0x00, 0x00, 0x00, 0x00, 0x00, 0x00,",
text! "\t0x00, 0x00, 0x00, 0x00, 0x00, 0x00, 0x00, 0x00,",
text! "\t0x00, 0x00, 0x00, 0x00, 0x00, 0x00, 0x00, 0x00,",
text! "\t// block 0x00a7",
text! "\t0x00, 0x00, 0x00, 0x00, 0x00, 0x00, 0x00, 0x00,",
text! "\t0x00, 0x00, 0x00, 0x00, 0x00, 0x00, 0x00, 0x00,",
text! "\t0x00, 0x0b, 0x0b, 0x0b, 0x23, 0x23, 0x23, 0x23,",
text! "\t0x00, 0x00, 0x23, 0x23, 0x0b, 0x0b, 0x0b, 0x0b,",
text! "\t0x23, 0x00, 0x00, 0x00, 0x0b, 0x00, 0x00, 0x00,",
text! "\t0x00, 0x00, 0x00, 0x00, 0x00, 0x00, 0x00, 0x00,",
text! "\t0x00, 0x00, 0x00, 0x00, 0x00, 0x00, 0x00, 0x00,",
text! "\t0x00, 0x00, 0x00, 0x00, 0x00, 0x00, 0x00, 0x00,",
text! "\t// block 0x00a8",
text! "\t0x10, 0x23, 0x23, 0x23, 0x23, 0x23, 0x23, 0x23,",
text! "\t0x23, 0x23, 0x23, 0x10, 0x10, 0x10, 0x10, 0x10,",
text! "\t0x10, 0x10, 0x10, 0x10, 0x10, 0x10, 0x10, 0x10,",
text! "\t0x10, 0x10, 0x10, 0x10, 0x10, 0x10, 0x10, 0x10,",
text! "\t0x10, 0x10, 0x10, 0x10, 0x10, 0x10, 0x10, 0x10,",
text! "\t0x10, 0x10, 0x10, 0x10, 0x10, 0x10, 0x10, 0x10,",
text! "\t0x10, 0x10, 0x10, 0x23, 0x23, 0x23, 0x23, 0x23,",
text! "\t0x23, 0x0b, 0x00, 0x23, 0x23, 0x23, 0x23, 0x00,",
text! "\t// block 0x00a9",
text! "\t0x00, 0x00, 0x00, 0x00, 0x00, 0x00, 0x00, 0x33,",
text! "\t0x00, 0x00, 0x00, 0x00, 0x00, 0x00, 0x00, 0x00,",
text! "\t0x10, 0x23, 0x23, 0x23, 0x23, 0x23, 0x23, 0x0b,",
text! "\t0x0b, 0x23, 0x23, 0x23, 0x10, 0x10, 0x10, 0x10,",
text! "\t0x10, 0x10, 0x10, 0x10, 0x10, 0x10, 0x10, 0x10,",
text! "\t0x10, 0x10, 0x10, 0x10, 0x10, 0x10, 0x10, 0x10,",
text! "\t0x10, 0x10, 0x10, 0x10, 0x10, 0x10, 0x10, 0x10,",
text! "\t0x10, 0x10, 0x10, 0x10, 0x10, 0x10, 0x10, 0x10,",
text! "\t// block 0x00aa",
text! "\t0x10, 0x10, 0x10, 0x10, 0x09, 0x09, 0x09, 0x09,",
text! "\t0x09, 0x09, 0x23, 0x23, 0x23, 0x23, 0x23, 0x23,",
text! "\t0x23, 0x23, 0x23, 0x23, 0x23, 0x23, 0x23, 0x0b,",
text! "\t0x23, 0x33, 0x00, 0x00, 0x00, 0x00, 0x00, 0x00,",
text! "\t0x00, 0x00, 0x00, 0x00, 0x00, 0x00, 0x00, 0x00,",
text! "\t0x00, 0x00, 0x00, 0x00, 0x00, 0x00, 0x00, 0x00,",
text! "\t0x00, 0x00, 0x00, 0x00, 0x00, 0x00, 0x00, 0x00,",
text! "\t0x00, 0x00, 0x00, 0x00, 0x00, 0x00, 0x00, 0x00,",
text! "\t// block 0x00ab",
text! "\t0x00, 0x00, 0x00, 0x00, 0x00, 0x00, 0x00, 0x00,",
text! "\t0x00, 0x00, 0x00, 0x00, 0x00, 0x00, 0x00, 0x00,",
text! "\t0x00, 0x00, 0x00, 0x00, 0x00, 0x00, 0x00, 0x00,",
text! "\t0x00, 0x00, 0x00, 0x00, 0x00, 0x00, 0x00, 0x00,",
text! "\t0x23, 0x0b, 0x23, 0x23, 0x23, 0x0b, 0x23, 0x0b,",
text! "\t0x00, 0x00, 0x00, 0x00, 0x00, 0x00, 0x00, 0x00,",
text! "\t0x00, 0x00, 0x00, 0x00, 0x00, 0x00, 0x00, 0x00,",
text! "\t0x00, 0x00, 0x00, 0x00, 0x00, 0x00, 0x00, 0x00,",
text! "\t// block 0x00ac",
text! "\t0x00, 0x00, 0x00, 0x00, 0x00, 0x00, 0x00, 0x00,",
text! "\t0x00, 0x00, 0x00, 0x00, 0x00, 0x00, 0x00, 0x00,",
text! "\t0x00, 0x00, 0x00, 0x00, 0x00, 0x00, 0x00, 0x00,",
text! "\t0x00, 0x00, 0x00, 0x00, 0x00, 0x00, 0x00, 0x00,",
text! "\t0x00, 0x00, 0x00, 0x00, 0x00, 0x00, 0x00, 0x00,",
text! "\t0x00, 0x00, 0x00, 0x00, 0x00, 0x00, 0x00, 0x0b,",
text! "\t0x23, 0x23, 0x23, 0x23, 0x23, 0x23, 0x23, 0x00,",
text! "\t0x23, 0x23, 0x23, 0x23, 0x23, 0x23, 0x0b, 0x23,",
text! "\t// block 0x00ad",
text! "\t0x00, 0x00, 0x00, 0x00, 0x00, 0x00, 0x00, 0x00,",
text! "\t0x00, 0x00, 0x00, 0x00, 0x00, 0x00, 0x00, 0x00,"]

/-- lines 1793-1856 -/
def tableText28 : List Nat := [
text! "\t0x00, 0x00, 0x23, 0x23, 0x23, 0x23, 0x23, 0x23,",
text! "\t0x23, 0x23, 0x23, 0x23, 0x23, 0x23, 0x23, 0x23,",
text! "\t0x23, 0x23, 0x23, 0x23, 0x23, 0x23, 0x23, 0x23,",
text! "\t0x00, 0x0b, 0x23, 0x23, 0x23, 0x23, 0x23, 0x23,",
text! "\t0x23, 0x0b, 0x23, 0x23, 0x0b, 0x23, 0x23, 0x00,",
text! "\t0x00, 0x00, 0x00, 0x00, 0x00, 0x00, 0x00, 0x00,",
text! "\t// block 0x00ae",
text! "\t0x00, 0x00, 0x00, 0x00, 0x00, 0x00, 0x00, 0x00,",
text! "\t0x00, 0x00, 0x00, 0x00, 0x00, 0x00, 0x00, 0x00,",
text! "\t0x00, 0x00, 0x00, 0x00, 0x00, 0x00, 0x00, 0x00,",
text! "\t0x00, 0x00, 0x00, 0x00, 0x00, 0x00, 0x00, 0x00,",
text! "\t0x00, 0x00, 0x00, 0x00, 0x00, 0x00, 0x00, 0x00,",
text! "\t0x00, 0x00, 0x00, 0x00, 0x00, 0x00, 0x00, 0x00,",
text! "\t0x00, 0x23, 0x23, 0x23, 0x23, 0x23, 0x23, 0x00,",
text! "\t0x00, 0x00, 0x23, 0x00, 0x23, 0x23, 0x00, 0x23,",
text! "\t// block 0x00af",
text! "\t0x23, 0x23, 0x23, 0x23, 0x23, 0x23, 0x09, 0x23,",
text! "\t0x00, 0x00, 0x00, 0x00, 0x00, 0x00, 0x00, 0x00,",
text! "\t0x00, 0x00, 0x00, 0x00, 0x00, 0x00, 0x00, 0x00,",
text! "\t0x00, 0x00, 0x00, 0x00, 0x00, 0x00, 0x00, 0x00,",
text! "\t0x00, 0x00, 0x00, 0x00, 0x00, 0x00, 0x00, 0x00,",
text! "\t0x00, 0x00, 0x00, 0x00, 0x00, 0x00, 0x00, 0x00,",
text! "\t0x00, 0x00, 0x00, 0x00, 0x00, 0x00, 0x00, 0x00,",
text! "\t0x00, 0x00, 0x00, 0x00, 0x00, 0x00, 0x00, 0x00,",
text! "\t// block 0x00b0",
text! "\t0x00, 0x00, 0x00, 0x00, 0x00, 0x00, 0x00, 0x00,",
text! "\t0x00, 0x00, 0x0b, 0x0b, 0x0b, 0x0b, 0x0b, 0x00,",
text! "\t0x23, 0x23, 0x00, 0x0b, 0x0b, 0x23, 0x0b, 0x23,",
text! "\t0x00, 0x00, 0x00, 0x00, 0x00, 0x00, 0x00, 0x00,",
text! "\t0x00, 0x00, 0x00, 0x00, 0x00, 0x00, 0x00, 0x00,",
text! "\t0x00, 0x00, 0x00, 0x00, 0x00, 0x00, 0x00, 0x00,",
text! "\t0x00, 0x00, 0x00, 0x00, 0x00, 0x00, 0x00, 0x00,",
text! "\t0x00, 0x00, 0x00, 0x00, 0x00, 0x00, 0x00, 0x00,",
text! "\t// block 0x00b1",
text! "\t0x00, 0x00, 0x00, 0x00, 0x00, 0x00, 0x00, 0x00,",
text! "\t0x00, 0x00, 0x00, 0x00, 0x00, 0x00, 0x00, 0x00,",
text! "\t0x00, 0x00, 0x00, 0x00, 0x00, 0x00, 0x00, 0x00,",
text! "\t0x00, 0x00, 0x00, 0x00, 0x00, 0x00, 0x00, 0x00,",
text! "\t0x00, 0x00, 0x00, 0x00, 0x00, 0x00, 0x00, 0x00,",
text! "\t0x00, 0x00, 0x00, 0x00, 0x00, 0x00, 0x00, 0x00,",
text! "\t0x00, 0x00, 0x00, 0x23, 0x23, 0x0b, 0x0b, 0x00,",
text! "\t0x00, 0x00, 0x00, 0x00, 0x00, 0x00, 0x00, 0x00,",
text! "\t// block 0x00b2",
text! "\t0x23, 0x23, 0x09, 0x0b, 0x10, 0x10, 0x10, 0x10,",
text! "\t0x10, 0x10, 0x10, 0x10, 0x10, 0x10, 0x10, 0x10,",
text! "\t0x10, 0x00, 0x10, 0x10, 0x10, 0x10, 0x10, 0x10,",
text! "\t0x10, 0x10, 0x10, 0x10, 0x10, 0x10, 0x10, 0x10,",
text! "\t0x10, 0x10, 0x10, 0x10, 0x10, 0x10, 0x10, 0x10,",
text! "\t0x10, 0x10, 0x10, 0x10, 0x10, 0x10, 0x10, 0x10,",
text! "\t0x10, 0x10, 0x10, 0x10, 0x0b, 0x0b, 0x23, 0x23,",
text! "\t0x23, 0x23, 0x23, 0x00, 0x00, 0x00, 0x0b, 0x0b,",
text! "\t// block 0x00b3",
text! "\t0x23, 0x23, 0x33, 0x00, 0x00, 0x00, 0x00, 0x00,",
text! "\t0x00, 0x00, 0x00, 0x00, 0x00, 0x00, 0x00, 0x00,",
text! "\t0x00, 0x00, 0x00, 0x00, 0x00, 0x00, 0x00, 0x00,",
text! "\t0x00, 0x00, 0x23, 0x00, 0x00, 0x00, 0x00, 0x00,",
text! "\t0x00, 0x00, 0x00, 0x00, 0x00, 0x00, 0x00, 0x00,",
text! "\t0x00, 0x00, 0x00, 0x00, 0x00, 0x00, 0x00, 0x00,",
text! "\t0x00, 0x00, 0x00, 0x00, 0x00, 0x00, 0x00, 0x00,",
text! "\t0x00, 0x00, 0x00, 0x00, 0x00, 0x00, 0x00, 0x00,",
text! "\t// block 0x00b4",
text! "\t0x00, 0x00, 0x00, 0x00, 0x00, 0x00, 0x00, 0x00,",
text! "\t0x00, 0x00, 0x00, 0x00, 0x00, 0x00, 0x00, 0x00,",
text! "\t0x00, 0x00, 0x00, 0x00, 0x00, 0x00, 0x00, 0x00,"]

/-- lines 1857-1920 -/
def tableText29 : List Nat := [
text! "\t0x00, 0x00, 0x00, 0x00, 0x00, 0x00, 0x00, 0x00,",
text! "\t0x00, 0x00, 0x00, 0x00, 0x00, 0x00, 0x00, 0x00,",
text! "\t0x00, 0x00, 0x00, 0x00, 0x00, 0x00, 0x00, 0x00,",
text! "\t0x02, 0x02, 0x02, 0x02, 0x02, 0x02, 0x02, 0x02,",
text! "\t0x02, 0x02, 0x02, 0x02, 0x02, 0x02, 0x02, 0x02,",
text! "\t// block 0x00b5",
text! "\t0x23, 0x00, 0x00, 0x00, 0x00, 0x00, 0x00, 0x23,",
text! "\t0x23, 0x23, 0x23, 0x23, 0x23, 0x23, 0x23, 0x23,",
text! "\t0x23, 0x23, 0x23, 0x23, 0x23, 0x23, 0x00, 0x00,",
text! "\t0x00, 0x00, 0x00, 0x00, 0x00, 0x00, 0x00, 0x00,",
text! "\t0x00, 0x00, 0x00, 0x00, 0x00, 0x00, 0x00, 0x00,",
text! "\t0x00, 0x00, 0x00, 0x00, 0x00, 0x00, 0x00, 0x00,",
text! "\t0x00, 0x00, 0x00, 0x00, 0x00, 0x00, 0x00, 0x00,",
text! "\t0x00, 0x00, 0x00, 0x00, 0x00, 0x00, 0x00, 0x00,",
text! "\t// block 0x00b6",
text! "\t0x00, 0x00, 0x00, 0x00, 0x00, 0x00, 0x00, 0x00,",
text! "\t0x00, 0x00, 0x00, 0x00, 0x00, 0x00, 0x00, 0x00,",
text! "\t0x00, 0x00, 0x00, 0x00, 0x00, 0x00, 0x00, 0x00,",
text! "\t0x00, 0x00, 0x00, 0x00, 0x00, 0x00, 0x23, 0x23,",
text! "\t0x23, 0x23, 0x23, 0x23, 0x23, 0x23, 0x23, 0x23,",
text! "\t0x23, 0x23, 0x0b, 0x0b, 0x0b, 0x23, 0x23, 0x23,",
text! "\t0x00, 0x00, 0x00, 0x00, 0x00, 0x00, 0x00, 0x00,",
text! "\t0x00, 0x00, 0x00, 0x00, 0x00, 0x00, 0x00, 0x00,",
text! "\t// block 0x00b7",
text! "\t0x00, 0x00, 0x00, 0x00, 0x00, 0x00, 0x00, 0x00,",
text! "\t0x00, 0x00, 0x00, 0x00, 0x00, 0x00, 0x00, 0x00,",
text! "\t0x00, 0x00, 0x00, 0x00, 0x00, 0x00, 0x00, 0x00,",
text! "\t0x00, 0x00, 0x00, 0x00, 0x00, 0x00, 0x00, 0x00,",
text! "\t0x00, 0x00, 0x00, 0x00, 0x00, 0x00, 0x00, 0x00,",
text! "\t0x00, 0x00, 0x00, 0x00, 0x00, 0x00, 0x00, 0x00,",
text! "\t0x23, 0x23, 0x23, 0x23, 0x23, 0x00, 0x00, 0x00,",
text! "\t0x00, 0x00, 0x00, 0x00, 0x00, 0x00, 0x00, 0x00,",
text! "\t// block 0x00b8",
text! "\t0x00, 0x00, 0x00, 0x00, 0x00, 0x00, 0x00, 0x00,",
text! "\t0x00, 0x00, 0x00, 0x00, 0x00, 0x00, 0x00, 0x00,",
text! "\t0x00, 0x00, 0x00, 0x00, 0x00, 0x00, 0x00, 0x00,",
text! "\t0x00, 0x00, 0x00, 0x00, 0x00, 0x00, 0x00, 0x00,",
text! "\t0x00, 0x00, 0x00, 0x00, 0x00, 0x00, 0x00, 0x00,",
text! "\t0x00, 0x00, 0x00, 0x00, 0x00, 0x00, 0x00, 0x00,",
text! "\t0x23, 0x23, 0x23, 0x23, 0x23, 0x23, 0x23, 0x00,",
text! "\t0x00, 0x00, 0x00, 0x00, 0x00, 0x00, 0x00, 0x00,",
text! "\t// block 0x00b9",
text! "\t0x00, 0x00, 0x00, 0x00, 0x00, 0x00, 0x00, 0x00,",
text! "\t0x00, 0x00, 0x00, 0x00, 0x00, 0x00, 0x00, 0x00,",
text! "\t0x00, 0x00, 0x00, 0x00, 0x00, 0x00, 0x00, 0x00,",
text! "\t0x00, 0x00, 0x00, 0x00, 0x00, 0x00, 0x00, 0x00,",
text! "\t0x00, 0x00, 0x00, 0x0d, 0x00, 0x00, 0x00, 0x0d,",
text! "\t0x0d, 0x0d, 0x0d, 0x00, 0x00, 0x00, 0x00, 0x00,",
text! "\t0x00, 0x00, 0x00, 0x00, 0x00, 0x00, 0x00, 0x00,",
text! "\t0x00, 0x00, 0x00, 0x00, 0x00, 0x00, 0x00, 0x00,",
text! "\t// block 0x00ba",
text! "\t0x00, 0x00, 0x00, 0x00, 0x00, 0x00, 0x00, 0x00,",
text! "\t0x00, 0x00, 0x00, 0x00, 0x00, 0x00, 0x00, 0x23,",
text! "\t0x00, 0x0b, 0x0b, 0x0b, 0x0b, 0x0b, 0x0b, 0x0b,",
text! "\t0x0b, 0x0b, 0x0b, 0x0b, 0x0b, 0x0b, 0x0b, 0x0b,",
text! "\t0x0b, 0x0b, 0x0b, 0x0b, 0x0b, 0x0b, 0x0b, 0x0b,",
text! "\t0x0b, 0x0b, 0x0b, 0x0b, 0x0b, 0x0b, 0x0b, 0x0b,",
text! "\t0x0b, 0x0b, 0x0b, 0x0b, 0x0b, 0x0b, 0x0b, 0x0b,",
text! "\t0x0b, 0x0b, 0x0b, 0x0b, 0x0b, 0x0b, 0x0b, 0x0b,",
text! "\t// block 0x00bb",
text! "\t0x0b, 0x0b, 0x0b, 0x0b, 0x0b, 0x0b, 0x0b, 0x0b,",
text! "\t0x00, 0x00, 0x00, 0x00, 0x00, 0x00, 0x00, 0x23,",
text! "\t0x23, 0x23, 0x23, 0x00, 0x00, 0x00, 0x00, 0x00,",
text! "\t0x00, 0x00, 0x00, 0x00, 0x00, 0x00, 0x00, 0x00,"]

/-- lines 1921-1984 -/
def tableText30 : List Nat := [
text! "\t0x00, 0x00, 0x00, 0x00, 0x00, 0x00, 0x00, 0x00,",
text! "\t0x00, 0x00, 0x00, 0x00, 0x00, 0x00, 0x00, 0x00,",
text! "\t0x00, 0x00, 0x00, 0x00, 0x00, 0x00, 0x00, 0x00,",
text! "\t0x00, 0x00, 0x00, 0x00, 0x00, 0x00, 0x00, 0x00,",
text! "\t// block 0x00bc",
text! "\t0x00, 0x00, 0x00, 0x00, 0x00, 0x00, 0x00, 0x00,",
text! "\t0x00, 0x00, 0x00, 0x00, 0x00, 0x00, 0x00, 0x00,",
text! "\t0x00, 0x00, 0x00, 0x00, 0x00, 0x00, 0x00, 0x00,",
text! "\t0x00, 0x00, 0x00, 0x00, 0x00, 0x00, 0x00, 0x00,",
text! "\t0x00, 0x00, 0x00, 0x00, 0x23, 0x00, 0x00, 0x00,",
text! "\t0x00, 0x00, 0x00, 0x00, 0x00, 0x00, 0x00, 0x00,",
text! "\t0x23, 0x23, 0x00, 0x00, 0x00, 0x00, 0x00, 0x00,",
text! "\t0x00, 0x00, 0x00, 0x00, 0x00, 0x00, 0x00, 0x00,",
text! "\t// block 0x00bd",
text! "\t0x00, 0x00, 0x00, 0x00, 0x00, 0x00, 0x00, 0x00,",
text! "\t0x00, 0x00, 0x00, 0x00, 0x00, 0x00, 0x00, 0x00,",
text! "\t0x00, 0x00, 0x00, 0x00, 0x00, 0x00, 0x00, 0x00,",
text! "\t0x00, 0x00, 0x00, 0x00, 0x00, 0x23, 0x23, 0x00,",
text! "\t0x02, 0x02, 0x02, 0x02, 0x00, 0x00, 0x00, 0x00,",
text! "\t0x00, 0x00, 0x00, 0x00, 0x00, 0x00, 0x00, 0x00,",
text! "\t0x00, 0x00, 0x00, 0x00, 0x00, 0x00, 0x00, 0x00,",
text! "\t0x00, 0x00, 0x00, 0x00, 0x00, 0x00, 0x00, 0x00,",
text! "\t// block 0x00be",
text! "\t0x23, 0x23, 0x23, 0x23, 0x23, 0x23, 0x23, 0x23,",
text! "\t0x23, 0x23, 0x23, 0x23, 0x23, 0x23, 0x23, 0x23,",
text! "\t0x23, 0x23, 0x23, 0x23, 0x23, 0x23, 0x23, 0x23,",
text! "\t0x23, 0x23, 0x23, 0x23, 0x23, 0x23, 0x23, 0x23,",
text! "\t0x23, 0x23, 0x23, 0x23, 0x23, 0x23, 0x23, 0x23,",
text! "\t0x23, 0x23, 0x23, 0x23, 0x23, 0x23, 0x00, 0x00,",
text! "\t0x23, 0x23, 0x23, 0x23, 0x23, 0x23, 0x23, 0x23,",
text! "\t0x23, 0x23, 0x23, 0x23, 0x23, 0x23, 0x23, 0x23,",
text! "\t// block 0x00bf",
text! "\t0x23, 0x23, 0x23, 0x23, 0x23, 0x23, 0x23, 0x00,",
text! "\t0x00, 0x00, 0x00, 0x00, 0x00, 0x00, 0x00, 0x00,",
text! "\t0x00, 0x00, 0x00, 0x00, 0x00, 0x00, 0x00, 0x00,",
text! "\t0x00, 0x00, 0x00, 0x00, 0x00, 0x00, 0x00, 0x00,",
text! "\t0x00, 0x00, 0x00, 0x00, 0x00, 0x00, 0x00, 0x00,",
text! "\t0x00, 0x00, 0x00, 0x00, 0x00, 0x00, 0x00, 0x00,",
text! "\t0x00, 0x00, 0x00, 0x00, 0x00, 0x00, 0x00, 0x00,",
text! "\t0x00, 0x00, 0x00, 0x00, 0x00, 0x00, 0x00, 0x00,",
text! "\t// block 0x00c0",
text! "\t0x00, 0x00, 0x00, 0x00, 0x00, 0x00, 0x00, 0x00,",
text! "\t0x00, 0x00, 0x00, 0x00, 0x00, 0x00, 0x00, 0x00,",
text! "\t0x00, 0x00, 0x00, 0x00, 0x00, 0x00, 0x00, 0x00,",
text! "\t0x00, 0x00, 0x00, 0x00, 0x00, 0x00, 0x00, 0x00,",
text! "\t0x00, 0x00, 0x00, 0x00, 0x00, 0x23, 0x23, 0x23,",
text! "\t0x23, 0x23, 0x00, 0x00, 0x00, 0x23, 0x23, 0x23,",
text! "\t0x23, 0x23, 0x23, 0x02, 0x02, 0x02, 0x02, 0x02,",
text! "\t0x02, 0x02, 0x02, 0x23, 0x23, 0x23, 0x23, 0x23,",
text! "\t// block 0x00c1",
text! "\t0x23, 0x23, 0x23, 0x00, 0x00, 0x23, 0x23, 0x23,",
text! "\t0x23, 0x23, 0x23, 0x23, 0x00, 0x00, 0x00, 0x00,",
text! "\t0x00, 0x00, 0x00, 0x00, 0x00, 0x00, 0x00, 0x00,",
text! "\t0x00, 0x00, 0x00, 0x00, 0x00, 0x00, 0x00, 0x00,",
text! "\t0x00, 0x00, 0x00, 0x00, 0x00, 0x00, 0x00, 0x00,",
text! "\t0x00, 0x00, 0x23, 0x23, 0x23, 0x23, 0x00, 0x00,",
text! "\t0x00, 0x00, 0x00, 0x00, 0x00, 0x00, 0x00, 0x00,",
text! "\t0x00, 0x00, 0x00, 0x00, 0x00, 0x00, 0x00, 0x00,",
text! "\t// block 0x00c2",
text! "\t0x00, 0x00, 0x23, 0x23, 0x23, 0x00, 0x00, 0x00,",
text! "\t0x00, 0x00, 0x00, 0x00, 0x00, 0x00, 0x00, 0x00,",
text! "\t0x00, 0x00, 0x00, 0x00, 0x00, 0x00, 0x00, 0x00,",
text! "\t0x00, 0x00, 0x00, 0x00, 0x00, 0x00, 0x00, 0x00,",
text! "\t0x00, 0x00, 0x00, 0x00, 0x00, 0x00, 0x00, 0x00,"]

/-- lines 1985-2048 -/
def tableText31 : List Nat := [
text! "\t0x00, 0x00, 0x00, 0x00, 0x00, 0x00, 0x00, 0x00,",
text! "\t0x00, 0x00, 0x00, 0x00, 0x00, 0x00, 0x00, 0x00,",
text! "\t0x00, 0x00, 0x00, 0x00, 0x00, 0x00, 0x00, 0x00,",
text! "\t// block 0x00c3",
text! "\t0x23, 0x23, 0x23, 0x23, 0x23, 0x23, 0x23, 0x23,",
text! "\t0x23, 0x23, 0x23, 0x23, 0x23, 0x23, 0x23, 0x23,",
text! "\t0x23, 0x23, 0x23, 0x23, 0x23, 0x23, 0x23, 0x23,",
text! "\t0x23, 0x23, 0x23, 0x23, 0x23, 0x23, 0x23, 0x23,",
text! "\t0x23, 0x23, 0x23, 0x23, 0x23, 0x23, 0x23, 0x23,",
text! "\t0x23, 0x23, 0x23, 0x23, 0x23, 0x23, 0x23, 0x23,",
text! "\t0x23, 0x23, 0x23, 0x23, 0x23, 0x23, 0x23, 0x00,",
text! "\t0x00, 0x00, 0x00, 0x23, 0x23, 0x23, 0x23, 0x23,",
text! "\t// block 0x00c4",
text! "\t0x23, 0x23, 0x23, 0x23, 0x23, 0x23, 0x23, 0x23,",
text! "\t0x23, 0x23, 0x23, 0x23, 0x23, 0x23, 0x23, 0x23,",
text! "\t0x23, 0x23, 0x23, 0x23, 0x23, 0x23, 0x23, 0x23,",
text! "\t0x23, 0x23, 0x23, 0x23, 0x23, 0x23, 0x23, 0x23,",
text! "\t0x23, 0x23, 0x23, 0x23, 0x23, 0x23, 0x23, 0x23,",
text! "\t0x23, 0x23, 0x23, 0x23, 0x23, 0x00, 0x00, 0x00,",
text! "\t0x00, 0x00, 0x00, 0x00, 0x00, 0x23, 0x00, 0x00,",
text! "\t0x00, 0x00, 0x00, 0x00, 0x00, 0x00, 0x00, 0x00,",
text! "\t// block 0x00c5",
text! "\t0x00, 0x00, 0x00, 0x00, 0x23, 0x00, 0x00, 0x00,",
text! "\t0x00, 0x00, 0x00, 0x00, 0x00, 0x00, 0x00, 0x00,",
text! "\t0x00, 0x00, 0x00, 0x00, 0x00, 0x00, 0x00, 0x00,",
text! "\t0x00, 0x00, 0x00, 0x23, 0x23, 0x23, 0x23, 0x23,",
text! "\t0x00, 0x23, 0x23, 0x23, 0x23, 0x23, 0x23, 0x23,",
text! "\t0x23, 0x23, 0x23, 0x23, 0x23, 0x23, 0x23, 0x23,",
text! "\t0x00, 0x00, 0x00, 0x00, 0x00, 0x00, 0x00, 0x00,",
text! "\t0x00, 0x00, 0x00, 0x00, 0x00, 0x00, 0x00, 0x00,",
text! "\t// block 0x00c6",
text! "\t0x23, 0x23, 0x23, 0x23, 0x23, 0x23, 0x23, 0x00,",
text! "\t0x23, 0x23, 0x23, 0x23, 0x23, 0x23, 0x23, 0x23,",
text! "\t0x23, 0x23, 0x23, 0x23, 0x23, 0x23, 0x23, 0x23,",
text! "\t0x23, 0x00, 0x00, 0x23, 0x23, 0x23, 0x23, 0x23,",
text! "\t0x23, 0x23, 0x00, 0x23, 0x23, 0x00, 0x23, 0x23,",
text! "\t0x23, 0x23, 0x23, 0x00, 0x00, 0x00, 0x00, 0x00,",
text! "\t0x00, 0x00, 0x00, 0x00, 0x00, 0x00, 0x00, 0x00,",
text! "\t0x00, 0x00, 0x00, 0x00, 0x00, 0x00, 0x00, 0x00,",
text! "\t// block 0x00c7",
text! "\t0x00, 0x00, 0x00, 0x00, 0x00, 0x00, 0x00, 0x00,",
text! "\t0x00, 0x00, 0x00, 0x00, 0x00, 0x00, 0x00, 0x23,",
text! "\t0x00, 0x00, 0x00, 0x00, 0x00, 0x00, 0x00, 0x00,",
text! "\t0x00, 0x00, 0x00, 0x00, 0x00, 0x00, 0x00, 0x00,",
text! "\t0x00, 0x00, 0x00, 0x00, 0x00, 0x00, 0x00, 0x00,",
text! "\t0x00, 0x00, 0x00, 0x00, 0x00, 0x00, 0x00, 0x00,",
text! "\t0x00, 0x00, 0x00, 0x00, 0x00, 0x00, 0x00, 0x00,",
text! "\t0x00, 0x00, 0x00, 0x00, 0x00, 0x00, 0x00, 0x00,",
text! "\t// block 0x00c8",
text! "\t0x00, 0x00, 0x00, 0x00, 0x00, 0x00, 0x00, 0x00,",
text! "\t0x00, 0x00, 0x00, 0x00, 0x00, 0x00, 0x00, 0x00,",
text! "\t0x00, 0x00, 0x00, 0x00, 0x00, 0x00, 0x00, 0x00,",
text! "\t0x00, 0x00, 0x00, 0x00, 0x00, 0x00, 0x00, 0x00,",
text! "\t0x00, 0x00, 0x00, 0x00, 0x00, 0x00, 0x00, 0x00,",
text! "\t0x00, 0x00, 0x00, 0x00, 0x00, 0x00, 0x23, 0x00,",
text! "\t0x00, 0x00, 0x00, 0x00, 0x00, 0x00, 0x00, 0x00,",
text! "\t0x00, 0x00, 0x00, 0x00, 0x00, 0x00, 0x00, 0x00,",
text! "\t// block 0x00c9",
text! "\t0x00, 0x00, 0x00, 0x00, 0x00, 0x00, 0x00, 0x00,",
text! "\t0x00, 0x00, 0x00, 0x00, 0x00, 0x00, 0x00, 0x00,",
text! "\t0x00, 0x00, 0x00, 0x00, 0x00, 0x00, 0x00, 0x00,",
text! "\t0x00, 0x00, 0x00, 0x00, 0x00, 0x00, 0x00, 0x00,",
text! "\t0x00, 0x00, 0x00, 0x00, 0x00, 0x00, 0x00, 0x00,",
text! "\t0x00, 0x00, 0x00, 0x00, 0x23, 0x23, 0x23, 0x23,"]

/-- lines 2049-2112 -/
def tableText32 : List Nat := [
text! "\t0x00, 0x00, 0x00, 0x00, 0x00, 0x00, 0x00, 0x00,",
text! "\t0x00, 0x00, 0x00, 0x00, 0x00, 0x00, 0x00, 0x00,",
text! "\t// block 0x00ca",
text! "\t0x00, 0x00, 0x00, 0x00, 0x00, 0x00, 0x00, 0x00,",
text! "\t0x00, 0x00, 0x00, 0x00, 0x00, 0x00, 0x00, 0x00,",
text! "\t0x00, 0x00, 0x00, 0x00, 0x00, 0x00, 0x00, 0x00,",
text! "\t0x00, 0x00, 0x00, 0x00, 0x00, 0x00, 0x00, 0x00,",
text! "\t0x00, 0x00, 0x00, 0x00, 0x00, 0x00, 0x00, 0x00,",
text! "\t0x00, 0x00, 0x00, 0x00, 0x00, 0x00, 0x23, 0x23,",
text! "\t0x00, 0x00, 0x00, 0x00, 0x00, 0x00, 0x00, 0x00,",
text! "\t0x00, 0x00, 0x00, 0x00, 0x00, 0x00, 0x00, 0x00,",
text! "\t// block 0x00cb",
text! "\t0x00, 0x00, 0x00, 0x00, 0x00, 0x00, 0x00, 0x00,",
text! "\t0x00, 0x00, 0x00, 0x00, 0x00, 0x00, 0x00, 0x00,",
text! "\t0x00, 0x00, 0x00, 0x00, 0x00, 0x00, 0x00, 0x00,",
text! "\t0x00, 0x00, 0x00, 0x00, 0x00, 0x00, 0x00, 0x00,",
text! "\t0x00, 0x00, 0x00, 0x23, 0x00, 0x00, 0x23, 0x00,",
text! "\t0x00, 0x00, 0x00, 0x00, 0x00, 0x00, 0x23, 0x23,",
text! "\t0x00, 0x00, 0x00, 0x00, 0x00, 0x23, 0x00, 0x00,",
text! "\t0x00, 0x00, 0x00, 0x00, 0x00, 0x00, 0x00, 0x00,",
text! "\t// block 0x00cc",
text! "\t0x00, 0x00, 0x00, 0x00, 0x00, 0x00, 0x00, 0x00,",
text! "\t0x00, 0x00, 0x00, 0x00, 0x00, 0x00, 0x00, 0x00,",
text! "\t0x23, 0x23, 0x23, 0x23, 0x23, 0x23, 0x23, 0x00,",
text! "\t0x00, 0x00, 0x00, 0x00, 0x00, 0x00, 0x00, 0x00,",
text! "\t0x00, 0x00, 0x00, 0x00, 0x00, 0x00, 0x00, 0x00,",
text! "\t0x00, 0x00, 0x00, 0x00, 0x00, 0x00, 0x00, 0x00,",
text! "\t0x00, 0x00, 0x00, 0x00, 0x00, 0x00, 0x00, 0x00,",
text! "\t0x00, 0x00, 0x00, 0x00, 0x00, 0x00, 0x00, 0x00,",
text! "\t// block 0x00cd",
text! "\t0x00, 0x00, 0x00, 0x00, 0x23, 0x23, 0x23, 0x23,",
text! "\t0x23, 0x23, 0x23, 0x00, 0x00, 0x00, 0x00, 0x00,",
text! "\t0x00, 0x00, 0x00, 0x00, 0x00, 0x00, 0x00, 0x00,",
text! "\t0x00, 0x00, 0x00, 0x00, 0x00, 0x00, 0x00, 0x00,",
text! "\t0x00, 0x00, 0x00, 0x00, 0x00, 0x00, 0x00, 0x00,",
text! "\t0x00, 0x00, 0x00, 0x00, 0x00, 0x00, 0x00, 0x00,",
text! "\t0x00, 0x00, 0x00, 0x00, 0x00, 0x00, 0x00, 0x00,",
text! "\t0x00, 0x00, 0x00, 0x00, 0x00, 0x00, 0x00, 0x00,",
text! "\t// block 0x00ce",
text! "\t0x00, 0x00, 0x00, 0x00, 0x04, 0x00, 0x00, 0x00,",
text! "\t0x00, 0x00, 0x00, 0x00, 0x00, 0x00, 0x00, 0x00,",
text! "\t0x00, 0x00, 0x00, 0x00, 0x00, 0x00, 0x00, 0x00,",
text! "\t0x00, 0x00, 0x00, 0x00, 0x00, 0x00, 0x00, 0x00,",
text! "\t0x00, 0x00, 0x00, 0x00, 0x00, 0x00, 0x00, 0x00,",
text! "\t0x00, 0x00, 0x00, 0x00, 0x04, 0x04, 0x04, 0x04,",
text! "\t0x00, 0x00, 0x00, 0x00, 0x00, 0x00, 0x00, 0x00,",
text! "\t0x00, 0x00, 0x00, 0x00, 0x00, 0x00, 0x00, 0x00,",
text! "\t// block 0x00cf",
text! "\t0x00, 0x00, 0x00, 0x00, 0x00, 0x00, 0x00, 0x00,",
text! "\t0x00, 0x00, 0x00, 0x00, 0x00, 0x00, 0x00, 0x00,",
text! "\t0x00, 0x00, 0x00, 0x00, 0x04, 0x04, 0x04, 0x04,",
text! "\t0x04, 0x04, 0x04, 0x04, 0x04, 0x04, 0x04, 0x04,",
text! "\t0x00, 0x00, 0x00, 0x00, 0x00, 0x00, 0x00, 0x00,",
text! "\t0x00, 0x00, 0x00, 0x00, 0x00, 0x00, 0x00, 0x04,",
text! "\t0x04, 0x00, 0x00, 0x00, 0x00, 0x00, 0x00, 0x00,",
text! "\t0x00, 0x00, 0x00, 0x00, 0x00, 0x00, 0x00, 0x00,",
text! "\t// block 0x00d0",
text! "\t0x04, 0x00, 0x00, 0x00, 0x00, 0x00, 0x00, 0x00,",
text! "\t0x00, 0x00, 0x00, 0x00, 0x00, 0x00, 0x00, 0x04,",
text! "\t0x04, 0x00, 0x00, 0x00, 0x00, 0x00, 0x00, 0x00,",
text! "\t0x00, 0x00, 0x00, 0x00, 0x00, 0x00, 0x00, 0x00,",
text! "\t0x00, 0x00, 0x00, 0x00, 0x00, 0x00, 0x00, 0x00,",
text! "\t0x00, 0x00, 0x00, 0x00, 0x00, 0x00, 0x00, 0x00,",
text! "\t0x00, 0x00, 0x00, 0x00, 0x00, 0x00, 0x04, 0x04,"]

/-- lines 2113-2176 -/
def tableText33 : List Nat := [
text! "\t0x04, 0x04, 0x04, 0x04, 0x04, 0x04, 0x04, 0x04,",
text! "\t// block 0x00d1",
text! "\t0x00, 0x00, 0x00, 0x00, 0x00, 0x00, 0x00, 0x00,",
text! "\t0x00, 0x00, 0x00, 0x00, 0x00, 0x00, 0x00, 0x00,",
text! "\t0x00, 0x00, 0x00, 0x00, 0x00, 0x00, 0x00, 0x00,",
text! "\t0x00, 0x00, 0x00, 0x00, 0x00, 0x00, 0x00, 0x00,",
text! "\t0x00, 0x00, 0x00, 0x00, 0x00, 0x00, 0x00, 0x00,",
text! "\t0x00, 0x00, 0x00, 0x00, 0x00, 0x00, 0x00, 0x00,",
text! "\t0x04, 0x04, 0x00, 0x00, 0x00, 0x00, 0x00, 0x00,",
text! "\t0x00, 0x00, 0x00, 0x00, 0x00, 0x00, 0x04, 0x04,",
text! "\t// block 0x00d2",
text! "\t0x00, 0x00, 0x00, 0x00, 0x00, 0x00, 0x00, 0x00,",
text! "\t0x00, 0x00, 0x00, 0x00, 0x00, 0x00, 0x04, 0x00,",
text! "\t0x00, 0x04, 0x04, 0x04, 0x04, 0x04, 0x04, 0x04,",
text! "\t0x04, 0x04, 0x04, 0x00, 0x00, 0x00, 0x00, 0x00,",
text! "\t0x00, 0x00, 0x00, 0x00, 0x00, 0x00, 0x00, 0x00,",
text! "\t0x00, 0x00, 0x00, 0x00, 0x00, 0x00, 0x04, 0x04,",
text! "\t0x04, 0x04, 0x04, 0x04, 0x04, 0x04, 0x04, 0x04,",
text! "\t0x04, 0x04, 0x04, 0x04, 0x04, 0x04, 0x04, 0x04,",
text! "\t// block 0x00d3",
text! "\t0x04, 0x04, 0x04, 0x04, 0x04, 0x04, 0x04, 0x04,",
text! "\t0x04, 0x04, 0x04, 0x04, 0x04, 0x04, 0x04, 0x04,",
text! "\t0x04, 0x04, 0x04, 0x04, 0x04, 0x04, 0x04, 0x04,",
text! "\t0x04, 0x04, 0x04, 0x04, 0x04, 0x04, 0x04, 0x04,",
text! "\t0x04, 0x04, 0x04, 0x04, 0x04, 0x04, 0x0a, 0x0a,",
text! "\t0x0a, 0x0a, 0x0a, 0x0a, 0x0a, 0x0a, 0x0a, 0x0a,",
text! "\t0x0a, 0x0a, 0x0a, 0x0a, 0x0a, 0x0a, 0x0a, 0x0a,",
text! "\t0x0a, 0x0a, 0x0a, 0x0a, 0x0a, 0x0a, 0x0a, 0x0a,",
text! "\t// block 0x00d4",
text! "\t0x00, 0x04, 0x04, 0x04, 0x04, 0x04, 0x04, 0x04,",
text! "\t0x04, 0x04, 0x04, 0x04, 0x04, 0x04, 0x04, 0x04,",
text! "\t0x00, 0x00, 0x00, 0x00, 0x00, 0x00, 0x00, 0x00,",
text! "\t0x00, 0x00, 0x04, 0x00, 0x00, 0x00, 0x00, 0x00,",
text! "\t0x00, 0x00, 0x00, 0x00, 0x00, 0x00, 0x00, 0x00,",
text! "\t0x00, 0x00, 0x00, 0x00, 0x00, 0x00, 0x00, 0x04,",
text! "\t0x00, 0x00, 0x04, 0x04, 0x04, 0x04, 0x04, 0x04,",
text! "\t0x04, 0x04, 0x04, 0x00, 0x04, 0x04, 0x04, 0x04,",
text! "\t// block 0x00d5",
text! "\t0x00, 0x00, 0x00, 0x00, 0x00, 0x00, 0x00, 0x00,",
text! "\t0x00, 0x04, 0x04, 0x04, 0x04, 0x04, 0x04, 0x04,",
text! "\t0x04, 0x04, 0x04, 0x04, 0x04, 0x04, 0x04, 0x04,",
text! "\t0x04, 0x04, 0x04, 0x04, 0x04, 0x04, 0x04, 0x04,",
text! "\t0x00, 0x00, 0x00, 0x00, 0x00, 0x00, 0x04, 0x04,",
text! "\t0x04, 0x04, 0x04, 0x04, 0x04, 0x04, 0x04, 0x04,",
text! "\t0x04, 0x04, 0x04, 0x04, 0x04, 0x04, 0x04, 0x04,",
text! "\t0x04, 0x04, 0x04, 0x04, 0x04, 0x04, 0x04, 0x04,",
text! "\t// block 0x00d6",
text! "\t0x04, 0x04, 0x04, 0x04, 0x04, 0x04, 0x04, 0x04,",
text! "\t0x04, 0x04, 0x04, 0x04, 0x04, 0x04, 0x04, 0x04,",
text! "\t0x04, 0x04, 0x04, 0x04, 0x04, 0x04, 0x04, 0x04,",
text! "\t0x04, 0x04, 0x04, 0x04, 0x04, 0x04, 0x04, 0x04,",
text! "\t0x04, 0x04, 0x04, 0x04, 0x04, 0x04, 0x04, 0x04,",
text! "\t0x04, 0x04, 0x04, 0x04, 0x04, 0x04, 0x04, 0x04,",
text! "\t0x04, 0x04, 0x04, 0x04, 0x04, 0x04, 0x04, 0x04,",
text! "\t0x04, 0x04, 0x04, 0x04, 0x04, 0x04, 0x04, 0x04,",
text! "\t// block 0x00d7",
text! "\t0x04, 0x04, 0x04, 0x04, 0x04, 0x04, 0x04, 0x04,",
text! "\t0x04, 0x04, 0x04, 0x04, 0x04, 0x04, 0x04, 0x04,",
text! "\t0x04, 0x04, 0x04, 0x04, 0x04, 0x04, 0x04, 0x04,",
text! "\t0x04, 0x04, 0x04, 0x04, 0x04, 0x04, 0x04, 0x04,",
text! "\t0x04, 0x04, 0x00, 0x00, 0x04, 0x04, 0x04, 0x04,",
text! "\t0x04, 0x04, 0x04, 0x04, 0x04, 0x04, 0x04, 0x04,",
text! "\t0x04, 0x04, 0x04, 0x04, 0x04, 0x04, 0x04, 0x04,",
text! "\t0x04, 0x04, 0x04, 0x04, 0x04, 0x04, 0x04, 0x04,"]

/-- lines 2177-2240 -/
def tableText34 : List Nat := [
text! "\t// block 0x00d8",
text! "\t0x04, 0x04, 0x04, 0x04, 0x04, 0x04, 0x04, 0x04,",
text! "\t0x04, 0x04, 0x04, 0x04, 0x04, 0x04, 0x04, 0x04,",
text! "\t0x04, 0x04, 0x04, 0x04, 0x00, 0x00, 0x04, 0x04,",
text! "\t0x00, 0x04, 0x04, 0x04, 0x00, 0x00, 0x04, 0x04,",
text! "\t0x04, 0x04, 0x04, 0x04, 0x04, 0x04, 0x04, 0x04,",
text! "\t0x04, 0x04, 0x04, 0x04, 0x04, 0x04, 0x04, 0x04,",
text! "\t0x04, 0x04, 0x04, 0x04, 0x04, 0x04, 0x04, 0x04,",
text! "\t0x04, 0x04, 0x04, 0x04, 0x04, 0x04, 0x04, 0x04,",
text! "\t// block 0x00d9",
text! "\t0x04, 0x04, 0x04, 0x04, 0x04, 0x04, 0x04, 0x04,",
text! "\t0x04, 0x04, 0x04, 0x04, 0x04, 0x04, 0x04, 0x04,",
text! "\t0x04, 0x04, 0x04, 0x04, 0x04, 0x04, 0x04, 0x04,",
text! "\t0x04, 0x04, 0x04, 0x04, 0x04, 0x04, 0x04, 0x04,",
text! "\t0x04, 0x04, 0x04, 0x04, 0x04, 0x04, 0x04, 0x04,",
text! "\t0x04, 0x04, 0x04, 0x04, 0x04, 0x04, 0x04, 0x04,",
text! "\t0x04, 0x00, 0x00, 0x04, 0x04, 0x04, 0x00, 0x04,",
text! "\t0x04, 0x04, 0x04, 0x23, 0x23, 0x23, 0x23, 0x23,",
text! "\t// block 0x00da",
text! "\t0x04, 0x04, 0x04, 0x04, 0x04, 0x04, 0x04, 0x04,",
text! "\t0x04, 0x04, 0x04, 0x04, 0x04, 0x04, 0x04, 0x04,",
text! "\t0x04, 0x04, 0x04, 0x04, 0x04, 0x04, 0x04, 0x04,",
text! "\t0x04, 0x04, 0x04, 0x04, 0x04, 0x04, 0x04, 0x04,",
text! "\t0x04, 0x04, 0x04, 0x04, 0x04, 0x04, 0x04, 0x04,",
text! "\t0x04, 0x04, 0x04, 0x04, 0x04, 0x04, 0x04, 0x04,",
text! "\t0x04, 0x04, 0x04, 0x04, 0x04, 0x04, 0x04, 0x04,",
text! "\t0x04, 0x04, 0x04, 0x04, 0x04, 0x04, 0x00, 0x04,",
text! "\t// block 0x00db",
text! "\t0x04, 0x04, 0x04, 0x04, 0x04, 0x04, 0x04, 0x04,",
text! "\t0x04, 0x04, 0x04, 0x04, 0x04, 0x04, 0x04, 0x04,",
text! "\t0x04, 0x04, 0x04, 0x04, 0x04, 0x04, 0x04, 0x04,",
text! "\t0x04, 0x04, 0x04, 0x04, 0x04, 0x04, 0x04, 0x04,",
text! "\t0x04, 0x04, 0x04, 0x04, 0x04, 0x04, 0x04, 0x04,",
text! "\t0x04, 0x04, 0x04, 0x04, 0x04, 0x04, 0x04, 0x04,",
text! "\t0x04, 0x04, 0x04, 0x04, 0x04, 0x04, 0x04, 0x04,",
text! "\t0x04, 0x04, 0x04, 0x04, 0x04, 0x04, 0x00, 0x00,",
text! "\t// block 0x00dc",
text! "\t0x00, 0x00, 0x00, 0x00, 0x00, 0x00, 0x00, 0x00,",
text! "\t0x00, 0x04, 0x04, 0x04, 0x04, 0x04, 0x04, 0x00,",
text! "\t0x04, 0x04, 0x04, 0x04, 0x04, 0x04, 0x04, 0x04,",
text! "\t0x04, 0x04, 0x04, 0x04, 0x04, 0x04, 0x04, 0x04,",
text! "\t0x04, 0x04, 0x04, 0x04, 0x04, 0x04, 0x04, 0x04,",
text! "\t0x00, 0x00, 0x00, 0x00, 0x00, 0x00, 0x00, 0x04,",
text! "\t0x04, 0x00, 0x00, 0x04, 0x04, 0x04, 0x04, 0x04,",
text! "\t0x04, 0x04, 0x04, 0x00, 0x00, 0x00, 0x00, 0x00,",
text! "\t// block 0x00dd",
text! "\t0x00, 0x00, 0x00, 0x00, 0x00, 0x00, 0x00, 0x04,",
text! "\t0x00, 0x00, 0x04, 0x04, 0x04, 0x04, 0x00, 0x00,",
text! "\t0x04, 0x00, 0x00, 0x00, 0x00, 0x04, 0x04, 0x00,",
text! "\t0x00, 0x00, 0x00, 0x00, 0x00, 0x00, 0x00, 0x00,",
text! "\t0x00, 0x00, 0x00, 0x00, 0x04, 0x04, 0x00, 0x00,",
text! "\t0x04, 0x00, 0x00, 0x00, 0x00, 0x00, 0x00, 0x00,",
text! "\t0x00, 0x04, 0x04, 0x00, 0x00, 0x00, 0x00, 0x00,",
text! "\t0x00, 0x00, 0x00, 0x00, 0x04, 0x00, 0x00, 0x00,",
text! "\t// block 0x00de",
text! "\t0x00, 0x00, 0x04, 0x04, 0x04, 0x00, 0x00, 0x00,",
text! "\t0x00, 0x00, 0x00, 0x00, 0x00, 0x00, 0x00, 0x00,",
text! "\t0x00, 0x04, 0x04, 0x04, 0x00, 0x00, 0x00, 0x00,",
text! "\t0x00, 0x00, 0x00, 0x00, 0x04, 0x04, 0x04, 0x00,",
text! "\t0x00, 0x04, 0x00, 0x04, 0x00, 0x00, 0x00, 0x00,",
text! "\t0x04, 0x00, 0x00, 0x00, 0x00, 0x00, 0x00, 0x04,",
text! "\t0x00, 0x00, 0x00, 0x04, 0x00, 0x00, 0x00, 0x00,",
text! "\t0x00, 0x00, 0x04, 0x04, 0x04, 0x04, 0x04, 0x04,",
text! "\t// block 0x00df"]

/-- lines 2241-2304 -/
def tableText35 : List Nat := [
text! "\t0x04, 0x04, 0x04, 0x04, 0x04, 0x04, 0x04, 0x04,",
text! "\t0x04, 0x04, 0x04, 0x04, 0x04, 0x04, 0x04, 0x04,",
text! "\t0x00, 0x00, 0x00, 0x00, 0x00, 0x00, 0x00, 0x00,",
text! "\t0x00, 0x00, 0x00, 0x00, 0x00, 0x00, 0x00, 0x00,",
text! "\t0x00, 0x00, 0x00, 0x00, 0x00, 0x00, 0x00, 0x00,",
text! "\t0x00, 0x00, 0x00, 0x00, 0x00, 0x00, 0x00, 0x00,",
text! "\t0x00, 0x00, 0x00, 0x00, 0x00, 0x00, 0x00, 0x00,",
text! "\t0x00, 0x00, 0x00, 0x00, 0x00, 0x00, 0x00, 0x00,",
text! "\t// block 0x00e0",
text! "\t0x04, 0x04, 0x04, 0x04, 0x04, 0x04, 0x00, 0x00,",
text! "\t0x00, 0x00, 0x00, 0x04, 0x04, 0x04, 0x04, 0x04,",
text! "\t0x04, 0x04, 0x04, 0x00, 0x00, 0x04, 0x04, 0x04,",
text! "\t0x04, 0x04, 0x04, 0x04, 0x04, 0x04, 0x04, 0x04,",
text! "\t0x04, 0x04, 0x04, 0x04, 0x04, 0x04, 0x00, 0x00,",
text! "\t0x00, 0x04, 0x00, 0x04, 0x04, 0x04, 0x04, 0x04,",
text! "\t0x04, 0x00, 0x00, 0x04, 0x04, 0x04, 0x04, 0x04,",
text! "\t0x04, 0x04, 0x04, 0x04, 0x04, 0x04, 0x04, 0x04,",
text! "\t// block 0x00e1",
text! "\t0x00, 0x00, 0x00, 0x00, 0x00, 0x00, 0x00, 0x00,",
text! "\t0x00, 0x00, 0x00, 0x00, 0x00, 0x00, 0x00, 0x00,",
text! "\t0x00, 0x00, 0x00, 0x00, 0x00, 0x00, 0x00, 0x00,",
text! "\t0x00, 0x00, 0x04, 0x04, 0x04, 0x04, 0x04, 0x04,",
text! "\t0x04, 0x04, 0x04, 0x04, 0x04, 0x04, 0x04, 0x04,",
text! "\t0x04, 0x04, 0x04, 0x04, 0x04, 0x04, 0x04, 0x04,",
text! "\t0x04, 0x04, 0x04, 0x04, 0x04, 0x04, 0x04, 0x04,",
text! "\t0x04, 0x04, 0x04, 0x04, 0x04, 0x04, 0x04, 0x04,",
text! "\t// block 0x00e2",
text! "\t0x00, 0x00, 0x00, 0x00, 0x00, 0x00, 0x00, 0x00,",
text! "\t0x00, 0x00, 0x00, 0x00, 0x04, 0x04, 0x04, 0x04,",
text! "\t0x00, 0x00, 0x00, 0x00, 0x00, 0x00, 0x00, 0x00,",
text! "\t0x00, 0x00, 0x00, 0x00, 0x00, 0x00, 0x00, 0x00,",
text! "\t0x00, 0x00, 0x00, 0x00, 0x00, 0x00, 0x00, 0x00,",
text! "\t0x00, 0x00, 0x00, 0x00, 0x00, 0x00, 0x00, 0x00,",
text! "\t0x00, 0x00, 0x00, 0x00, 0x00, 0x00, 0x00, 0x00,",
text! "\t0x00, 0x00, 0x00, 0x00, 0x00, 0x00, 0x00, 0x00,",
text! "\t// block 0x00e3",
text! "\t0x00, 0x00, 0x00, 0x00, 0x00, 0x00, 0x00, 0x00,",
text! "\t0x04, 0x04, 0x04, 0x04, 0x04, 0x04, 0x04, 0x04,",
text! "\t0x00, 0x00, 0x00, 0x00, 0x00, 0x00, 0x00, 0x00,",
text! "\t0x00, 0x00, 0x04, 0x04, 0x04, 0x04, 0x04, 0x04,",
text! "\t0x00, 0x00, 0x00, 0x00, 0x00, 0x00, 0x00, 0x00,",
text! "\t0x00, 0x00, 0x00, 0x00, 0x00, 0x00, 0x00, 0x00,",
text! "\t0x00, 0x00, 0x00, 0x00, 0x00, 0x00, 0x00, 0x00,",
text! "\t0x00, 0x00, 0x00, 0x00, 0x00, 0x00, 0x00, 0x00,",
text! "\t// block 0x00e4",
text! "\t0x00, 0x00, 0x00, 0x00, 0x00, 0x00, 0x00, 0x00,",
text! "\t0x04, 0x04, 0x04, 0x04, 0x04, 0x04, 0x04, 0x04,",
text! "\t0x00, 0x00, 0x00, 0x00, 0x00, 0x00, 0x00, 0x00,",
text! "\t0x00, 0x00, 0x00, 0x00, 0x00, 0x00, 0x00, 0x00,",
text! "\t0x00, 0x00, 0x00, 0x00, 0x00, 0x00, 0x00, 0x00,",
text! "\t0x00, 0x00, 0x00, 0x00, 0x00, 0x00, 0x04, 0x04,",
text! "\t0x00, 0x00, 0x00, 0x00, 0x00, 0x00, 0x00, 0x00,",
text! "\t0x00, 0x00, 0x00, 0x00, 0x04, 0x04, 0x04, 0x04,",
text! "\t// block 0x00e5",
text! "\t0x00, 0x00, 0x04, 0x04, 0x04, 0x04, 0x04, 0x04,",
text! "\t0x04, 0x04, 0x04, 0x04, 0x04, 0x04, 0x04, 0x04,",
text! "\t0x00, 0x00, 0x00, 0x00, 0x00, 0x00, 0x00, 0x00,",
text! "\t0x00, 0x04, 0x04, 0x04, 0x04, 0x04, 0x04, 0x04,",
text! "\t0x04, 0x04, 0x04, 0x04, 0x04, 0x04, 0x04, 0x04,",
text! "\t0x04, 0x04, 0x04, 0x04, 0x04, 0x04, 0x04, 0x04,",
text! "\t0x04, 0x04, 0x04, 0x04, 0x04, 0x04, 0x04, 0x04,",
text! "\t0x04, 0x04, 0x04, 0x04, 0x04, 0x04, 0x04, 0x04,",
text! "\t// block 0x00e6",
text! "\t0x00, 0x00, 0x00, 0x00, 0x00, 0x00, 0x00, 0x00,"]

/-- lines 2305-2357 -/
def tableText36 : List Nat := [
text! "\t0x00, 0x00, 0x00, 0x00, 0x04, 0x04, 0x04, 0x04,",
text! "\t0x04, 0x04, 0x04, 0x04, 0x04, 0x04, 0x04, 0x04,",
text! "\t0x04, 0x04, 0x04, 0x04, 0x04, 0x04, 0x04, 0x04,",
text! "\t0x04, 0x04, 0x04, 0x04, 0x04, 0x04, 0x04, 0x04,",
text! "\t0x04, 0x04, 0x04, 0x04, 0x04, 0x04, 0x04, 0x04,",
text! "\t0x04, 0x04, 0x04, 0x04, 0x04, 0x04, 0x04, 0x04,",
text! "\t0x04, 0x04, 0x04, 0x00, 0x04, 0x04, 0x04, 0x04,",
text! "\t// block 0x00e7",
text! "\t0x04, 0x04, 0x04, 0x04, 0x04, 0x04, 0x00, 0x04,",
text! "\t0x04, 0x04, 0x04, 0x04, 0x04, 0x04, 0x04, 0x04,",
text! "\t0x04, 0x04, 0x04, 0x04, 0x04, 0x04, 0x04, 0x04,",
text! "\t0x04, 0x04, 0x04, 0x04, 0x04, 0x04, 0x04, 0x04,",
text! "\t0x04, 0x04, 0x04, 0x04, 0x04, 0x04, 0x04, 0x04,",
text! "\t0x04, 0x04, 0x04, 0x04, 0x04, 0x04, 0x04, 0x04,",
text! "\t0x04, 0x04, 0x04, 0x04, 0x04, 0x04, 0x04, 0x04,",
text! "\t0x04, 0x04, 0x04, 0x04, 0x04, 0x04, 0x04, 0x04,",
text! "\t// block 0x00e8",
text! "\t0x00, 0x00, 0x00, 0x00, 0x00, 0x00, 0x00, 0x00,",
text! "\t0x00, 0x00, 0x00, 0x00, 0x00, 0x00, 0x00, 0x00,",
text! "\t0x00, 0x00, 0x00, 0x00, 0x00, 0x00, 0x00, 0x00,",
text! "\t0x04, 0x04, 0x04, 0x04, 0x04, 0x04, 0x04, 0x04,",
text! "\t0x00, 0x00, 0x00, 0x00, 0x00, 0x00, 0x00, 0x00,",
text! "\t0x00, 0x00, 0x00, 0x00, 0x00, 0x00, 0x04, 0x04,",
text! "\t0x04, 0x04, 0x04, 0x04, 0x04, 0x04, 0x04, 0x04,",
text! "\t0x04, 0x04, 0x04, 0x04, 0x04, 0x04, 0x04, 0x04,",
text! "\t// block 0x00e9",
text! "\t0x02, 0x02, 0x02, 0x02, 0x02, 0x02, 0x02, 0x02,",
text! "\t0x02, 0x02, 0x02, 0x02, 0x02, 0x02, 0x02, 0x02,",
text! "\t0x02, 0x02, 0x02, 0x02, 0x02, 0x02, 0x02, 0x02,",
text! "\t0x02, 0x02, 0x02, 0x02, 0x02, 0x02, 0x02, 0x02,",
text! "\t0x23, 0x23, 0x23, 0x23, 0x23, 0x23, 0x23, 0x23,",
text! "\t0x23, 0x23, 0x23, 0x23, 0x23, 0x23, 0x23, 0x23,",
text! "\t0x23, 0x23, 0x23, 0x23, 0x23, 0x23, 0x23, 0x23,",
text! "\t0x23, 0x23, 0x23, 0x23, 0x23, 0x23, 0x23, 0x23,",
text! "\t// block 0x00ea",
text! "\t0x02, 0x02, 0x02, 0x02, 0x02, 0x02, 0x02, 0x02,",
text! "\t0x02, 0x02, 0x02, 0x02, 0x02, 0x02, 0x02, 0x02,",
text! "\t0x02, 0x02, 0x02, 0x02, 0x02, 0x02, 0x02, 0x02,",
text! "\t0x02, 0x02, 0x02, 0x02, 0x02, 0x02, 0x02, 0x02,",
text! "\t0x02, 0x02, 0x02, 0x02, 0x02, 0x02, 0x02, 0x02,",
text! "\t0x02, 0x02, 0x02, 0x02, 0x02, 0x02, 0x02, 0x02,",
text! "\t0x02, 0x02, 0x02, 0x02, 0x02, 0x02, 0x02, 0x02,",
text! "\t0x02, 0x02, 0x02, 0x02, 0x02, 0x02, 0x02, 0x02,",
text! "\t// block 0x00eb",
text! "\t0x23, 0x23, 0x23, 0x23, 0x23, 0x23, 0x23, 0x23,",
text! "\t0x23, 0x23, 0x23, 0x23, 0x23, 0x23, 0x23, 0x23,",
text! "\t0x23, 0x23, 0x23, 0x23, 0x23, 0x23, 0x23, 0x23,",
text! "\t0x23, 0x23, 0x23, 0x23, 0x23, 0x23, 0x23, 0x23,",
text! "\t0x23, 0x23, 0x23, 0x23, 0x23, 0x23, 0x23, 0x23,",
text! "\t0x23, 0x23, 0x23, 0x23, 0x23, 0x23, 0x23, 0x23,",
text! "\t0x02, 0x02, 0x02, 0x02, 0x02, 0x02, 0x02, 0x02,",
text! "\t0x02, 0x02, 0x02, 0x02, 0x02, 0x02, 0x02, 0x02,",
text! "}"]

/-- The lines of the file, in parts of 64 lines. -/
def tableText : List (List Nat) := [tableText0, tableText1, tableText2, tableText3, tableText4, tableText5, tableText6, tableText7, tableText8, tableText9, tableText10, tableText11, tableText12, tableText13, tableText14, tableText15, tableText16, tableText17, tableText18, tableText19, tableText20, tableText21, tableText22, tableText23, tableText24, tableText25, tableText26, tableText27, tableText28, tableText29, tableText30, tableText31, tableText32, tableText33, tableText34, tableText35, tableText36]

end Textseg.Text
