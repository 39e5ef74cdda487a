import Verif.Model.Text
/-!
# The text of textseg/internal/charprops/properties.go

Generated by tools/gen_text.py.
-/

namespace Textseg.Text

/-- lines 1-64 -/
def propertiesGo0 : List Nat := [
text! "package charprops",
text! "",
text! "import (",
text! "\t\"fmt\"",
text! ")",
text! "",
text! "// CharProperties is effectively a tuple of both a [GCBProperty] and an",
text! "// [InCBProperty] value, stored compactly as a bitwise-OR of valid values",
text! "// of those two types.",
text! "type CharProperties uint8",
text! "",
text! "const Error = CharProperties(uint8(GCBError) | uint8(InCBError))",
text! "",
text! "func MakeCharProperties(gcpProp GCBProperty, emojiProp GCBProperty, inCBProp InCBProperty) CharProperties {",
text! "\treturn CharProperties(uint8(gcpProp) | uint8(emojiProp) | uint8(inCBProp))",
text! "}",
text! "",
text! "func (cp CharProperties) GCBProperty() GCBProperty {",
text! "\treturn GCBProperty(cp & 0x0f)",
text! "}",
text! "",
text! "func (cp CharProperties) InCBProperty() InCBProperty {",
text! "\treturn InCBProperty(cp & 0xf0)",
text! "}",
text! "",
text! "func (cp CharProperties) String() string {",
text! "\tif cp == 0 {",
text! "\t\treturn \"None\"",
text! "\t}",
text! "\tif cp == Error {",
text! "\t\treturn \"Error\"",
text! "\t}",
text! "\tgcbP := cp.GCBProperty()",
text! "\tinCBP := cp.InCBProperty()",
text! "\tswitch {",
text! "\tcase inCBP == InCBNone:",
text! "\t\treturn gcbP.String()",
text! "\tcase gcbP == GCBNone:",
text! "\t\treturn \"InCB=\" + inCBP.String()",
text! "\tdefault:",
text! "\t\treturn fmt.Sprintf(\"%s|InCB=%s\", gcbP, inCBP)",
text! "\t}",
text! "}",
text! "",
text! "// GCBProperty is an enumeration of Grapheme_Cluster_Break property values,",
text! "// from [UAX#29 Section 3.1].",
text! "//",
text! "// The ExtendedPictographic property is actually derived from the Emoji",
text! "// standard's character tables, but is treated by UAX#29 as mutually-exclusive",
text! "// with the grapheme cluster break property value and so included in this",
text! "// enumeration for simplicity's sake.",
text! "//",
text! "// Note that the values of this type only set bits in the low nybble because",
text! "// they are intended to be bitwise-ORed with GCBProperty to produce",
text! "// [CharProperties] values.",
text! "//",
text! "// [UAX#29 Section 3.1]: https://www.unicode.org/reports/tr29/#Grapheme_Cluster_Break_Property_Values",
text! "type GCBProperty uint8",
text! "",
text! "const (",
text! "\tGCBNone                 GCBProperty = 0x00",
text! "\tGCBCR                   GCBProperty = 0x01",
text! "\tGCBControl              GCBProperty = 0x02",
text! "\tGCBExtend               GCBProperty = 0x03"]

/-- lines 65-128 -/
def propertiesGo1 : List Nat := [
text! "\tGCBExtendedPictographic GCBProperty = 0x04",
text! "\tGCBL                    GCBProperty = 0x05",
text! "\tGCBLF                   GCBProperty = 0x06",
text! "\tGCBLV                   GCBProperty = 0x07",
text! "\tGCBLVT                  GCBProperty = 0x08",
text! "\tGCBPrepend              GCBProperty = 0x09",
text! "\tGCBRegionalIndicator    GCBProperty = 0x0a",
text! "\tGCBSpacingMark          GCBProperty = 0x0b",
text! "\tGCBT                    GCBProperty = 0x0c",
text! "\tGCBV                    GCBProperty = 0x0d",
text! "\tGCBZWJ                  GCBProperty = 0x0e",
text! "",
text! "\t// GCBError is the GCB portion of [Error], which is not a real property",
text! "\t// value but instead represents that the grapheme cluster segmentation",
text! "\t// function encountered an invalid UTF-8 sequence.",
text! "\tGCBError GCBProperty = 0x0f",
text! ")",
text! "",
text! "// LookupGCBProperty returns the [GCPProperty] value corresponding to the",
text! "// given property name, or [GCBNone] if the name is not recognized.",
text! "func LookupGCBProperty(name string) GCBProperty {",
text! "\tswitch name {",
text! "\tcase \"CR\":",
text! "\t\treturn GCBCR",
text! "\tcase \"Control\":",
text! "\t\treturn GCBControl",
text! "\tcase \"Extend\":",
text! "\t\treturn GCBExtend",
text! "\tcase \"L\":",
text! "\t\treturn GCBL",
text! "\tcase \"LF\":",
text! "\t\treturn GCBLF",
text! "\tcase \"LV\":",
text! "\t\treturn GCBLV",
text! "\tcase \"LVT\":",
text! "\t\treturn GCBLVT",
text! "\tcase \"Prepend\":",
text! "\t\treturn GCBPrepend",
text! "\tcase \"Regional_Indicator\":",
text! "\t\treturn GCBRegionalIndicator",
text! "\tcase \"SpacingMark\":",
text! "\t\treturn GCBSpacingMark",
text! "\tcase \"T\":",
text! "\t\treturn GCBT",
text! "\tcase \"V\":",
text! "\t\treturn GCBV",
text! "\tcase \"ZWJ\":",
text! "\t\treturn GCBZWJ",
text! "\tdefault:",
text! "\t\treturn GCBNone",
text! "\t}",
text! "}",
text! "",
text! "// LookupEmojiProperty returns the [GCPProperty] value corresponding to the",
text! "// given emoji property name, or [GCBNone] if the name is not recognized.",
text! "//",
text! "// Note that because the segmentation rules treat the relevant emoji properties",
text! "// as mutually exclusive with the main grapheme clustering properties, we",
text! "// use [GCPProperty] to represent both of them and assume that no character",
text! "// will have both a nonzero result from [LookupGCPProperty] and from",
text! "// [LookupEmojiProperty], and so it's okay to collapse them together into the",
text! "// same enumeration. If they ever stop being mutually-exclusive then we'll",
text! "// need a different strategy.",
text! "func LookupEmojiProperty(name string) GCBProperty {"]

/-- lines 129-192 -/
def propertiesGo2 : List Nat := [
text! "\tswitch name {",
text! "\tcase \"Extended_Pictographic\":",
text! "\t\treturn GCBExtendedPictographic",
text! "\tdefault:",
text! "\t\treturn GCBNone // we don't need any other properties for our purposes here",
text! "\t}",
text! "}",
text! "",
text! "func (p GCBProperty) IsAnyControl() bool {",
text! "\tswitch p {",
text! "\tcase GCBLF, GCBCR, GCBControl:",
text! "\t\treturn true",
text! "\tdefault:",
text! "\t\treturn false",
text! "\t}",
text! "}",
text! "",
text! "func (p GCBProperty) String() string {",
text! "\tswitch p {",
text! "\tcase GCBCR:",
text! "\t\treturn \"CR\"",
text! "\tcase GCBControl:",
text! "\t\treturn \"Control\"",
text! "\tcase GCBExtend:",
text! "\t\treturn \"Extend\"",
text! "\tcase GCBL:",
text! "\t\treturn \"L\"",
text! "\tcase GCBLF:",
text! "\t\treturn \"LF\"",
text! "\tcase GCBLV:",
text! "\t\treturn \"LV\"",
text! "\tcase GCBLVT:",
text! "\t\treturn \"LVT\"",
text! "\tcase GCBPrepend:",
text! "\t\treturn \"Prepend\"",
text! "\tcase GCBRegionalIndicator:",
text! "\t\treturn \"Regional_Indicator\"",
text! "\tcase GCBSpacingMark:",
text! "\t\treturn \"SpacingMark\"",
text! "\tcase GCBT:",
text! "\t\treturn \"T\"",
text! "\tcase GCBV:",
text! "\t\treturn \"V\"",
text! "\tcase GCBZWJ:",
text! "\t\treturn \"ZWJ\"",
text! "\tcase GCBExtendedPictographic:",
text! "\t\treturn \"Extended_Pictographic\"",
text! "\tcase GCBNone:",
text! "\t\treturn \"None\"",
text! "\tcase GCBError:",
text! "\t\treturn \"Error\"",
text! "\tdefault:",
text! "\t\treturn fmt.Sprintf(\"0x%02x\", uint8(p))",
text! "\t}",
text! "}",
text! "",
text! "// InCBProperty is an enumeration of Indic_Conjunct_Break property values,",
text! "// as defined in DerivedCoreProperties.txt based on",
text! "// [the rules in UAX#44].",
text! "//",
text! "// These are used in the rule that avoids splitting orthographic syllables in",
text! "// inappropriated ways, [GB9c].",
text! "//",
text! "// Note that the values of this type only set bits in the high nybble because"]

/-- lines 193-238 -/
def propertiesGo3 : List Nat := [
text! "// they are intended to be bitwise-ORed with GCBProperty to produce",
text! "// [CharProperties] values.",
text! "//",
text! "// [the rules in UAX#44]: https://www.unicode.org/reports/tr44/#Indic_Conjunct_Break",
text! "// [GB9c]: https://www.unicode.org/reports/tr29/#GB9c",
text! "type InCBProperty uint8",
text! "",
text! "const (",
text! "\tInCBNone      InCBProperty = 0x00",
text! "\tInCBConsonant InCBProperty = 0x10",
text! "\tInCBExtend    InCBProperty = 0x20",
text! "\tInCBLinker    InCBProperty = 0x30",
text! "",
text! "\t// GCBError is the GCB portion of [Error], which is not a real property",
text! "\t// value but instead represents that the grapheme cluster segmentation",
text! "\t// function encountered an invalid UTF-8 sequence.",
text! "\tInCBError InCBProperty = 0xf0",
text! ")",
text! "",
text! "// LookupGCBProperty returns the [InCBProperty] value corresponding to the",
text! "// given property name, or [InCBNone] if the name is not recognized.",
text! "func LookupInCBProperty(name string) InCBProperty {",
text! "\tswitch name {",
text! "\tcase \"Consonant\":",
text! "\t\treturn InCBConsonant",
text! "\tcase \"Extend\":",
text! "\t\treturn InCBExtend",
text! "\tcase \"Linker\":",
text! "\t\treturn InCBLinker",
text! "\tdefault:",
text! "\t\treturn InCBNone",
text! "\t}",
text! "}",
text! "",
text! "func (p InCBProperty) String() string {",
text! "\tswitch p {",
text! "\tcase InCBConsonant:",
text! "\t\treturn \"Consonant\"",
text! "\tcase InCBExtend:",
text! "\t\treturn \"Extend\"",
text! "\tcase InCBLinker:",
text! "\t\treturn \"Linker\"",
text! "\tdefault:",
text! "\t\treturn fmt.Sprintf(\"0x%02x\", uint8(p))",
text! "\t}",
text! "}"]

/-- The lines of the file, in parts of 64 lines. -/
def propertiesGo : List (List Nat) := [propertiesGo0, propertiesGo1, propertiesGo2, propertiesGo3]

end Textseg.Text
