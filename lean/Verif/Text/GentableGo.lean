import Verif.Model.Text
/-!
# The text of textseg/internal/charprops/gentable/generate.go

Generated by tools/gen_text.py.
-/

namespace Textseg.Text

/-- lines 1-64 -/
def gentableGo0 : List Nat := [
text! "package gentable",
text! "",
text! "import (",
text! "\t\"fmt\"",
text! "\t\"io\"",
text! "\t\"os\"",
text! "\t\"path/filepath\"",
text! "\t\"slices\"",
text! "\t\"unicode/utf8\"",
text! "",
text! "\t\"github.com/apparentlymart/go-textseg/v17/textseg/internal/charprops\"",
text! "\t\"github.com/apparentlymart/go-textseg/v17/textseg/internal/charprops/ucdparse\"",
text! ")",
text! "",
text! "const blockShift = 6",
text! "const blockSize = 1 << blockShift",
text! "const blockMask = uint8(blockSize - 1)",
text! "",
text! "var zeroIndexBlock = make([]uint16, blockSize)",
text! "var zeroPropertyBlock = make([]uint8, blockSize)",
text! "",
text! "func BuildRawPropertyTree(baseDir string) (RawPropertyTree, error) {",
text! "\tgbpPath := filepath.Join(baseDir, \"auxiliary\", \"GraphemeBreakProperty.txt\")",
text! "\temojiPath := filepath.Join(baseDir, \"emoji\", \"emoji-data.txt\")",
text! "\tdcpPath := filepath.Join(baseDir, \"DerivedCoreProperties.txt\")",
text! "\tret := RawPropertyTree{}",
text! "",
text! "\tgbpFile, err := os.Open(gbpPath)",
text! "\tif err != nil {",
text! "\t\treturn ret, err",
text! "\t}",
text! "\temojiFile, err := os.Open(emojiPath)",
text! "\tif err != nil {",
text! "\t\treturn ret, err",
text! "\t}",
text! "\tdcpFile, err := os.Open(dcpPath)",
text! "\tif err != nil {",
text! "\t\treturn ret, err",
text! "\t}",
text! "",
text! "\ttip := newTreeInProgress()",
text! "\tgpbSc := ucdparse.NewScanner(gbpFile)",
text! "\temojiSc := ucdparse.NewScanner(emojiFile)",
text! "\tdcpSc := ucdparse.NewScanner(dcpFile)",
text! "\tfor {",
text! "\t\tentry, err := gpbSc.NextEntry()",
text! "\t\tif err == io.EOF {",
text! "\t\t\tbreak",
text! "\t\t} else if err != nil {",
text! "\t\t\treturn ret, fmt.Errorf(\"reading GraphemeBreakProperty.txt: %w\", err)",
text! "\t\t}",
text! "\t\tpropName := entry.FirstField()",
text! "\t\tprop := charprops.LookupGCBProperty(propName)",
text! "\t\tfor r := entry.Start; r < entry.End; r++ {",
text! "\t\t\ttip.Set(r, uint8(prop))",
text! "\t\t}",
text! "\t}",
text! "\tfor {",
text! "\t\tentry, err := emojiSc.NextEntry()",
text! "\t\tif err == io.EOF {",
text! "\t\t\tbreak",
text! "\t\t} else if err != nil {",
text! "\t\t\treturn ret, fmt.Errorf(\"reading emoji-data.txt: %w\", err)",
text! "\t\t}"]

/-- lines 65-128 -/
def gentableGo1 : List Nat := [
text! "\t\tpropName := entry.FirstField()",
text! "\t\tprop := charprops.LookupEmojiProperty(propName)",
text! "\t\tif prop == 0 {",
text! "\t\t\tcontinue",
text! "\t\t}",
text! "\t\tfor r := entry.Start; r < entry.End; r++ {",
text! "\t\t\ttip.Set(r, uint8(prop))",
text! "\t\t}",
text! "\t}",
text! "\tfor {",
text! "\t\tentry, err := dcpSc.NextEntry()",
text! "\t\tif err == io.EOF {",
text! "\t\t\tbreak",
text! "\t\t} else if err != nil {",
text! "\t\t\treturn ret, fmt.Errorf(\"reading DerivedCoreProperties.txt: %w\", err)",
text! "\t\t}",
text! "\t\tfields := slices.Collect(entry.AllFields())",
text! "\t\tif len(fields) < 2 || fields[0] != \"InCB\" {",
text! "\t\t\tcontinue // irrelevant to our goals, then",
text! "\t\t}",
text! "\t\tpropName := fields[1]",
text! "\t\tprop := charprops.LookupInCBProperty(propName)",
text! "\t\tfor r := entry.Start; r < entry.End; r++ {",
text! "\t\t\ttip.BitwiseOr(r, uint8(prop))",
text! "\t\t}",
text! "\t}",
text! "",
text! "\tret = tip.Compact()",
text! "\treturn ret, nil",
text! "}",
text! "",
text! "type treeInProgress struct {",
text! "\trawProps []uint8",
text! "\tindices  []uint16",
text! "}",
text! "",
text! "func newTreeInProgress() *treeInProgress {",
text! "\treturn &treeInProgress{",
text! "\t\t// The first 128 property slots are reserved for direct lookup of the",
text! "\t\t// ASCII characters, so we'll preallocate the storage for that.",
text! "\t\trawProps: make([]uint8, 128),",
text! "",
text! "\t\t// The first 64 index slots are reserved for the indices of the",
text! "\t\t// remaining valid initial bytes, which are indices into either",
text! "\t\t// rawProps directly or to a block offset elsewhere in indices",
text! "\t\t// depending on whether it's a two-byte or longer UTF-8 encoding.",
text! "\t\tindices: make([]uint16, blockSize),",
text! "\t}",
text! "}",
text! "",
text! "func (t *treeInProgress) Set(r rune, v uint8) {",
text! "\trawProps := t.ensureProps(r)",
text! "\tif v == 4 && *rawProps != 0 {",
text! "\t\tpanic(fmt.Sprintf(\"conflicting properties for U+%04X: already had %02x, but now have %02x\", r, *rawProps, v))",
text! "\t}",
text! "\t*rawProps = v",
text! "}",
text! "",
text! "func (t *treeInProgress) BitwiseOr(r rune, propMask uint8) {",
text! "\trawProps := t.ensureProps(r)",
text! "\t*rawProps |= propMask",
text! "}",
text! "",
text! "func (t *treeInProgress) ensureProps(r rune) *uint8 {"]

/-- lines 129-192 -/
def gentableGo2 : List Nat := [
text! "\tasU8 := make([]byte, 4)",
text! "\tbyteLen := utf8.EncodeRune(asU8, r)",
text! "\tasU8 = asU8[:byteLen]",
text! "\tif byteLen == 1 {",
text! "\t\t// The ASCII characters are treated as a special case directly looked",
text! "\t\t// up in the first 128 elements of rawProps, which are immediately",
text! "\t\t// allocated at the creation of a [treeInProgress].",
text! "\t\treturn &t.rawProps[int(asU8[0])]",
text! "\t}",
text! "",
text! "\t// In all of the following we just discard the top two bits of each",
text! "\t// byte, because in the first byte they are always 0b11 set and in",
text! "\t// any continuation bytes they are always 0b10. That gives us a natural",
text! "\t// block size of 64 entries, using the low 6 bits of each byte.",
text! "",
text! "\tnested := asU8[:len(asU8)-2]",
text! "\tpenultimate := asU8[len(asU8)-2]",
text! "\tfinal := asU8[len(asU8)-1]",
text! "\tcurrentBlockIdx := 0",
text! "\tfor _, b := range nested {",
text! "\t\tindexBlockIndexIdx := (currentBlockIdx << blockShift) + int(b&blockMask)",
text! "\t\tindexBlockIndex := int(t.indices[indexBlockIndexIdx])",
text! "\t\tif indexBlockIndex == 0 {",
text! "\t\t\t// Need to allocate a new index block, then.",
text! "\t\t\tindexBlockIndex = len(t.indices) >> blockShift",
text! "\t\t\tt.indices = append(t.indices, zeroIndexBlock...)",
text! "\t\t\tt.indices[indexBlockIndexIdx] = uint16(indexBlockIndex)",
text! "\t\t}",
text! "\t\tcurrentBlockIdx = indexBlockIndex",
text! "\t}",
text! "\tvar propBlockIndex int",
text! "\t{",
text! "\t\tpropBlockIndexIdx := (currentBlockIdx << blockShift) + int(penultimate&blockMask)",
text! "\t\tpropBlockIndex = int(t.indices[propBlockIndexIdx])",
text! "\t\tif propBlockIndex == 0 {",
text! "\t\t\t// Need to allocate a new property block, then.",
text! "\t\t\tpropBlockIndex = len(t.rawProps) >> blockShift",
text! "\t\t\tt.rawProps = append(t.rawProps, zeroPropertyBlock...)",
text! "\t\t\tt.indices[propBlockIndexIdx] = uint16(propBlockIndex)",
text! "\t\t}",
text! "\t}",
text! "\treturn &t.rawProps[(propBlockIndex<<blockShift)+int(final&blockMask)]",
text! "}",
text! "",
text! "func (t *treeInProgress) Compact() RawPropertyTree {",
text! "\tvar props []uint8",
text! "\tvar indices []uint16",
text! "\tpropBlockIdxs := make(map[string]uint16)",
text! "\tindexBlockIdxs := make(map[string]uint16)",
text! "",
text! "\t// The first 128 property values are fixed in place to represent the",
text! "\t// properties for the ASCII characters.",
text! "\tpropBlockIdxs[propertyBlockKey(t.rawProps[:blockSize])] = 0",
text! "\tpropBlockIdxs[propertyBlockKey(t.rawProps[blockSize:blockSize*2])] = 1",
text! "\tprops = append(props, t.rawProps[:128]...)",
text! "",
text! "\t// The first block of indices is the root, but we're going to rebuild",
text! "\t// that here as we reassign the block ids during compaction, so we'll",
text! "\t// start out with it all zeroed and then fill out in as we work.",
text! "\t// We start with an large capacity to ensure that the backing array of",
text! "\t// ret.Indices does not need to be extended and therefore reallocated",
text! "\t// during our work, since that would cause our subslice \"indices\" to",
text! "\t// be referring to the wrong backing array. (This is hacky, but accepted",
text! "\t// because this is just the generation code and so not relevant at runtime.)"]

/-- lines 193-256 -/
def gentableGo3 : List Nat := [
text! "\tindices = make([]uint16, blockSize, len(t.indices)*4)",
text! "\tdstRootIndices := indices // the first block is the root, which will fill out as we go",
text! "\tsrcRootIndices := t.indices[:blockSize]",
text! "",
text! "\tret := RawPropertyTree{",
text! "\t\tIndices:    indices,",
text! "\t\tProperties: props,",
text! "\t}",
text! "",
text! "\t// With those fixed elements in place, our task now is to walk the non-ASCII",
text! "\t// part of the tree, visiting all of the blocks, and rebuild the same tree",
text! "\t// while consolidating any duplicate blocks.",
text! "\tfor i := range srcRootIndices {",
text! "\t\tvar indexLevels int",
text! "\t\t// \"i\" here is a UTF-8 initial byte with its top two bits zeroed out,",
text! "\t\t// so the following is just the UTF-8 length rules but adapted for",
text! "\t\t// that masking.",
text! "\t\tswitch i >> 4 {",
text! "\t\tcase 0b00, 0b01: // two bytes long",
text! "\t\t\tindexLevels = 0",
text! "\t\tcase 0b10: // three bytes long",
text! "\t\t\tindexLevels = 1",
text! "\t\tcase 0b011: // four bytes long",
text! "\t\t\tindexLevels = 2",
text! "\t\tdefault:",
text! "\t\t\tpanic(\"invalid initial index\")",
text! "\t\t}",
text! "\t\tt.buildCompactedBlocks(&ret, indexLevels, srcRootIndices, dstRootIndices, i, indexBlockIdxs, propBlockIdxs)",
text! "\t}",
text! "",
text! "\t// Consistency check: if everything worked correctly then we should not",
text! "\t// have zero anywhere in the index table, because block zero of both",
text! "\t// tables is reserved for a special purpose.",
text! "\tfor i, v := range ret.Indices {",
text! "\t\tif v == 0 {",
text! "\t\t\tpanic(fmt.Sprintf(\"index entry %d is zero, which is invalid\", i))",
text! "\t\t}",
text! "\t}",
text! "",
text! "\treturn ret",
text! "}",
text! "",
text! "func (t *treeInProgress) buildCompactedBlocks(ret *RawPropertyTree, indexLevels int, srcIndices, dstIndices []uint16, currentIdx int, propBlockIdxs, indexBlockIdxs map[string]uint16) {",
text! "\tsrcBlockIdx := srcIndices[currentIdx]",
text! "\tif indexLevels > 0 {",
text! "\t\t// We're dealing with an intermediate index block, whose elements",
text! "\t\t// refer to child index blocks.",
text! "",
text! "\t\tvar srcBlock []uint16",
text! "\t\tif srcBlockIdx == 0 {",
text! "\t\t\t// This is a subtree that has no properties at all then, and so",
text! "\t\t\t// no block was allocated for it during initial construction.",
text! "\t\t\t// We'll just make sure this eventually points to an all-zeroes",
text! "\t\t\t// property block.",
text! "\t\t\tsrcBlock = make([]uint16, blockSize)",
text! "\t\t} else {",
text! "\t\t\tsrcBlockStart := srcBlockIdx << blockShift",
text! "\t\t\tsrcBlock = t.indices[srcBlockStart : srcBlockStart+blockSize]",
text! "\t\t}",
text! "",
text! "\t\tnewBlock := make([]uint16, blockSize)",
text! "\t\t// We'll now recursively populate the new block before we decide",
text! "\t\t// whether it's unique or if we have an existing block that already",
text! "\t\t// matches it."]

/-- lines 257-316 -/
def gentableGo4 : List Nat := [
text! "\t\tfor i := range srcBlock {",
text! "\t\t\tt.buildCompactedBlocks(ret, indexLevels-1, srcBlock, newBlock, i, indexBlockIdxs, propBlockIdxs)",
text! "\t\t}",
text! "\t\tblockKey := indexBlockKey(newBlock)",
text! "\t\tnewBlockIndex, ok := indexBlockIdxs[blockKey]",
text! "\t\tif !ok {",
text! "\t\t\t// This block is different to all others we saw before, so we'll",
text! "\t\t\t// add it and record its index for potential reuse later.",
text! "\t\t\tnewBlockIndex = uint16(len(ret.Indices) >> blockShift)",
text! "\t\t\tret.Indices = append(ret.Indices, newBlock...)",
text! "\t\t\tindexBlockIdxs[blockKey] = newBlockIndex",
text! "\t\t}",
text! "\t\tdstIndices[currentIdx] = newBlockIndex",
text! "\t\treturn",
text! "\t}",
text! "",
text! "\t// We're dealing with a leaf index block, whose elements refer to property",
text! "\t// blocks.",
text! "\tvar srcBlock []uint8",
text! "\tif srcBlockIdx == 0 {",
text! "\t\t// This is a subtree that has no properties at all then, and so",
text! "\t\t// no block was allocated for it during initial construction.",
text! "\t\t// We'll just make sure this eventually points to an all-zeroes",
text! "\t\t// property block.",
text! "\t\tsrcBlock = make([]uint8, blockSize)",
text! "\t} else {",
text! "\t\tsrcBlockStart := srcBlockIdx << blockShift",
text! "\t\tsrcBlock = t.rawProps[srcBlockStart : srcBlockStart+blockSize]",
text! "\t}",
text! "",
text! "\tblockKey := propertyBlockKey(srcBlock)",
text! "\tnewBlockIndex, ok := propBlockIdxs[blockKey]",
text! "\tif !ok {",
text! "\t\t// This block is different to all others we saw before, so we'll",
text! "\t\t// add it and record its index for potential reuse later.",
text! "\t\tnewBlockIndex = uint16(len(ret.Properties) >> blockShift)",
text! "\t\tret.Properties = append(ret.Properties, srcBlock...)",
text! "\t\tpropBlockIdxs[blockKey] = newBlockIndex",
text! "\t}",
text! "\tdstIndices[currentIdx] = newBlockIndex",
text! "}",
text! "",
text! "func indexBlockKey(block []uint16) string {",
text! "\tif len(block) != blockSize {",
text! "\t\tpanic(\"incorrect index block size\")",
text! "\t}",
text! "\tvar bytes [blockSize * 2]byte",
text! "\tfor i, v := range block {",
text! "\t\tbytes[i*2] = byte(v)",
text! "\t\tbytes[i*2+1] = byte(v >> 8)",
text! "\t}",
text! "\treturn string(bytes[:])",
text! "}",
text! "",
text! "func propertyBlockKey(block []uint8) string {",
text! "\tif len(block) != blockSize {",
text! "\t\tpanic(\"incorrect property block size\")",
text! "\t}",
text! "\treturn string(block)",
text! "}"]

/-- The lines of the file, in parts of 64 lines. -/
def gentableGo : List (List Nat) := [gentableGo0, gentableGo1, gentableGo2, gentableGo3, gentableGo4]

end Textseg.Text
