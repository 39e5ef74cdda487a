import Verif.Model.Text
/-!
# The text of textseg/internal/machine/state.go

Generated by tools/gen_text.py.
-/

namespace Textseg.Text

/-- lines 1-64 -/
def stateGo0 : List Nat := [
text! "package machine",
text! "",
text! "import (",
text! "\t\"github.com/apparentlymart/go-textseg/v17/textseg/internal/charprops\"",
text! ")",
text! "",
text! "// The state machine implemented here is a Go port of a Rust implementation",
text! "// in the \"grapheme_machine\" package on crates.io. It's more general than",
text! "// the main textseg package currently needs but maybe a future version will",
text! "// expose more of this in the public API if a compelling use-case emerges for",
text! "// that.",
text! "",
text! "// State represents different states we can transition through while detecting",
text! "// grapheme cluster boundaries.",
text! "//",
text! "// A State value essentially summarizes a set of category transitions that",
text! "// happened before the current one, so that we can detect arbitrary-long",
text! "// grapheme clusters using only finite storage.",
text! "//",
text! "// (In order to actually _use_ a detected grapheme cluster after its bounds",
text! "// have been found would require the caller to have buffered everything that",
text! "// appeared since the last boundary, but that's the caller's problem.)",
text! "type State int",
text! "",
text! "const (",
text! "\t// StateBase is the initial state at the beginning of the text or when the",
text! "\t// following should be treated as if it were at the beginning of the text.",
text! "\tStateBase State = iota",
text! "",
text! "\t// When the previous character was [charprops.GCBRegionalIndicator] but",
text! "\t// its predecessor was not, and therefore if the next character",
text! "\t// is also [charprops.GCBRegionalIndicator] the two together represent",
text! "\t// an emoji flag under rules GB12 and GB13.",
text! "\tStateAwaitEmojiFlag",
text! "",
text! "\t// When consecutive scalar values before the previous matched",
text! "\t// [charprops.GCBExtendedPictographic] followed by any number of",
text! "\t// [charprops.GCBExtend], and therefore if the next character is",
text! "\t// [charprops.GCBZWJ] we should transition to [StateGB11AfterZWJ].",
text! "\tStateGB11BeforeZWJ",
text! "",
text! "\t// The previous scalar value of category [charprops.GCBZWJ] arrived while",
text! "\t// in [StateGB11BeforeZWJ], and therefore rule GB11 is active.",
text! "\tStateGB11AfterZWJ",
text! "",
text! "\t// We encountered [charprops.InCBConsonant] followed by zero or more",
text! "\t// [charprops.InCBExtend] with no [charprops.InCBLinker] in between.",
text! "\tStateGB9cConsonant",
text! "",
text! "\t// We encountered [charprops.InCBConsonant] followed by at least one",
text! "\t// [charprops.InCBLinker] and zero or more [charprops.InCBExtend] in any",
text! "\t// order.",
text! "\tStateGB9cLinker",
text! ")",
text! "",
text! "// Begin initializes the state machine by providing the properties for the",
text! "// first character. Call [State.Transition] on the resulting state once",
text! "// the second character is known, passing the same properties as \"first\" in",
text! "// its \"prev\" argument.",
text! "func Begin(first charprops.CharProperties) State {",
text! "\treturn StateBase.nextState(first)",
text! "}",
text! "",
text! "// Given the previous category and the next category, Transition returns whether"]

/-- lines 65-128 -/
def stateGo1 : List Nat := [
text! "// there is a grapheme cluster boundary between two characters of those",
text! "// categories in the receiving state, and which state should be used for the",
text! "// next transition.",
text! "//",
text! "// Correct use requires that the \"prev\" of one call equal the \"next\" of the",
text! "// call that selected the recieving state. If that is not upheld then the",
text! "// results are unspecified.",
text! "func (s State) Transition(prev, next charprops.CharProperties) (bool, State) {",
text! "\tnextState := s.nextState(next)",
text! "",
text! "\t// The following was slightly more readable with Rust pattern matching",
text! "\t// syntax, but this is a direct translation of the same logic into Go if",
text! "\t// statements.",
text! "",
text! "\tprevC := prev.GCBProperty()",
text! "\tnextC := next.GCBProperty()",
text! "",
text! "\t// GB1 and GB2 aren't covered here because the caller is expected to",
text! "\t// use this function only at the boundary between two scalar values, and",
text! "\t// not at the beginning or end of the input. There is always a grapheme",
text! "\t// cluster boundary at the beginning and end of the input.",
text! "",
text! "\t// GB3: Do not break between CR and LF...",
text! "\tif prevC == charprops.GCBCR && nextC == charprops.GCBLF {",
text! "\t\treturn false, nextState",
text! "\t}",
text! "\t// GB4 and GB5: ...but otherwise, break before and after any control characters",
text! "\tif prevC.IsAnyControl() || nextC.IsAnyControl() {",
text! "\t\treturn true, nextState",
text! "\t}",
text! "\t// GB6: Do not break Hangul syllable or other conjoining sequences.",
text! "\tif prevC == charprops.GCBL && (nextC == charprops.GCBL || nextC == charprops.GCBV || nextC == charprops.GCBLV || nextC == charprops.GCBLVT) {",
text! "\t\treturn false, nextState",
text! "\t}",
text! "\t// GB7: Do not break Hangul syllable or other conjoining sequences.",
text! "\tif (prevC == charprops.GCBLV || prevC == charprops.GCBV) && (nextC == charprops.GCBV || nextC == charprops.GCBT) {",
text! "\t\treturn false, nextState",
text! "\t}",
text! "\t// GB8: Do not break Hangul syllable or other conjoining sequences.",
text! "\tif (prevC == charprops.GCBLVT || prevC == charprops.GCBT) && nextC == charprops.GCBT {",
text! "\t\treturn false, nextState",
text! "\t}",
text! "\t// GB9: Do not break before extending characters or ZWJ",
text! "\tif nextC == charprops.GCBExtend || nextC == charprops.GCBZWJ {",
text! "\t\treturn false, nextState",
text! "\t}",
text! "\t// GB9a: Do not break before spacing marks...",
text! "\tif nextC == charprops.GCBSpacingMark {",
text! "\t\treturn false, nextState",
text! "\t}",
text! "\t// GB9a: ...or after Prepend characters",
text! "\tif prevC == charprops.GCBPrepend {",
text! "\t\treturn false, nextState",
text! "\t}",
text! "\t// GB9c: Do not break within certain combinations with Indic_Conjunct_Break (InCB)=Linker",
text! "\tif s.gb9cActive() {",
text! "\t\tprevI := prev.InCBProperty()",
text! "\t\tnextI := next.InCBProperty()",
text! "\t\tif (prevI == charprops.InCBLinker || prevI == charprops.InCBExtend) && nextI == charprops.InCBConsonant {",
text! "\t\t\treturn false, nextState",
text! "\t\t}",
text! "\t}",
text! "\t// (GB10 was from an earlier version of the specification but is no longer used)",
text! "\t// GB11: Do not break within emoji modifier sequences or emoji zwj sequences."]

/-- lines 129-192 -/
def stateGo2 : List Nat := [
text! "\tif s.gb11Active() {",
text! "\t\tif prevC == charprops.GCBZWJ && nextC == charprops.GCBExtendedPictographic {",
text! "\t\t\treturn false, nextState",
text! "\t\t}",
text! "\t}",
text! "\t// GB12 and GB13: Do not break within emoji flag sequences.",
text! "\tif s.gb13Active() {",
text! "\t\tif prevC == charprops.GCBRegionalIndicator && nextC == charprops.GCBRegionalIndicator {",
text! "\t\t\treturn false, nextState",
text! "\t\t}",
text! "\t}",
text! "\t// GB999: Break in all other locations",
text! "\treturn true, nextState",
text! "}",
text! "",
text! "func (s State) nextState(next charprops.CharProperties) State {",
text! "\t// Two of the multi-character prefixes can begin regardless of what",
text! "\t// preceeds them. These don't need to be covered by the state-specific",
text! "\t// branches that follow.",
text! "\tif next.GCBProperty() == charprops.GCBExtendedPictographic {",
text! "\t\treturn StateGB11BeforeZWJ",
text! "\t}",
text! "\tif next.InCBProperty() == charprops.InCBConsonant {",
text! "\t\treturn StateGB9cConsonant",
text! "\t}",
text! "\tgcbProp := next.GCBProperty()",
text! "\tincbProp := next.InCBProperty()",
text! "\tswitch s {",
text! "\tcase StateBase:",
text! "\t\tswitch gcbProp {",
text! "\t\tcase charprops.GCBRegionalIndicator:",
text! "\t\t\treturn StateAwaitEmojiFlag",
text! "\t\tdefault:",
text! "\t\t\treturn StateBase",
text! "\t\t}",
text! "\tcase StateAwaitEmojiFlag:",
text! "\t\treturn StateBase",
text! "\tcase StateGB11BeforeZWJ:",
text! "\t\tswitch gcbProp {",
text! "\t\tcase charprops.GCBZWJ:",
text! "\t\t\treturn StateGB11AfterZWJ",
text! "\t\tcase charprops.GCBExtend:",
text! "\t\t\treturn StateGB11BeforeZWJ",
text! "\t\tdefault:",
text! "\t\t\treturn StateBase",
text! "\t\t}",
text! "\tcase StateGB11AfterZWJ:",
text! "\t\treturn StateBase",
text! "\tcase StateGB9cConsonant:",
text! "\t\tswitch incbProp {",
text! "\t\tcase charprops.InCBLinker:",
text! "\t\t\treturn StateGB9cLinker",
text! "\t\tcase charprops.InCBExtend:",
text! "\t\t\treturn StateGB9cConsonant",
text! "\t\tdefault:",
text! "\t\t\treturn StateBase",
text! "\t\t}",
text! "\tcase StateGB9cLinker:",
text! "\t\tswitch incbProp {",
text! "\t\tcase charprops.InCBLinker, charprops.InCBExtend:",
text! "\t\t\treturn StateGB9cLinker",
text! "\t\tdefault:",
text! "\t\t\treturn StateBase",
text! "\t\t}"]

/-- lines 193-211 -/
def stateGo3 : List Nat := [
text! "\tdefault:",
text! "\t\tpanic(\"invalid state\")",
text! "\t}",
text! "}",
text! "",
text! "func (s State) gb9cActive() bool {",
text! "\t// GB9c is active only in [StateGB9cLinker].",
text! "\treturn s == StateGB9cLinker",
text! "}",
text! "",
text! "func (s State) gb11Active() bool {",
text! "\t// GB11 is active only in [StateGB11AfterZWJ].",
text! "\treturn s == StateGB11AfterZWJ",
text! "}",
text! "",
text! "func (s State) gb13Active() bool {",
text! "\t// GB12/GB13 is active only in [StateAwaitEmojiFlag].",
text! "\treturn s == StateAwaitEmojiFlag",
text! "}"]

/-- The lines of the file, in parts of 64 lines. -/
def stateGo : List (List Nat) := [stateGo0, stateGo1, stateGo2, stateGo3]

end Textseg.Text
