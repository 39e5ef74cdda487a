{"id": "C01", "title": "Split function never panics and never returns an error", "statement": "For every byte slice and either value of atEOF, ScanGraphemeClusters returns normally (no index or slice out of range, no \"invalid state\" panic, its loop terminates) and its error result is nil.", "quantifier": "all byte slices data of any length and content (including arbitrary garbage), both values of atEOF", "why_tests_cant": "The input space is unbounded and the table lookups index three levels deep with attacker-controlled bits; a test can only sample it.", "anchors": ["textseg/grapheme_clusters.go:ScanGraphemeClusters", "textseg/internal/charprops/property_table.go:LookupFirstChar", "textseg/internal/machine/state.go:State.Transition", "textseg/internal/machine/state.go:State.nextState", "textseg/internal/charprops/property_table_raw.go:lookupIndices,lookupProps"]}
{"id": "C02", "title": "Result shape: the token is exactly the consumed prefix", "statement": "The advance is between 0 and len(data); the token is nil exactly when the advance is 0, and otherwise the token is data[:advance].", "quantifier": "all byte slices and both values of atEOF", "why_tests_cant": "Holds for every return path and every input; bufio.Scanner misbehaves on a single violating input.", "anchors": ["textseg/grapheme_clusters.go:ScanGraphemeClusters"]}
{"id": "C03", "title": "Progress at end of input", "statement": "If data is non-empty and atEOF is true the advance is at least 1, so a caller that loops until the data is used up always terminates; for empty data the result is (0, nil, nil) whatever atEOF is.", "quantifier": "all byte slices", "why_tests_cant": "A livelock needs only one bad input among infinitely many.", "anchors": ["textseg/grapheme_clusters.go:ScanGraphemeClusters"]}
{"id": "C04", "title": "Tokens partition the input", "statement": "Calling the function repeatedly at EOF, dropping each token, yields a finite list of non-empty tokens whose concatenation is exactly the input: nothing is lost, duplicated, reordered or altered.", "quantifier": "all byte strings, valid UTF-8 or not", "why_tests_cant": "Unbounded inputs; depends on every iteration of an unbounded loop.", "anchors": ["textseg/grapheme_clusters.go:ScanGraphemeClusters"]}
{"id": "C05", "title": "Conformance to UAX #29 extended grapheme clusters (Unicode 17)", "statement": "For every text (sequence of Unicode scalar values, encoded as UTF-8) there is a token boundary between two characters exactly where the rules GB3-GB9c, GB11-GB13, GB999 of UAX #29, applied to the whole text with the property values of the shipped Unicode 17 data files, demand one.", "quantifier": "all finite sequences of Unicode scalar values, all positions in them", "why_tests_cant": "The rules look back without bound (GB9c, GB11, GB12/13) and the code restarts its state machine at every cluster; the 766 official samples cannot cover every text.", "anchors": ["textseg/grapheme_clusters.go:ScanGraphemeClusters", "textseg/internal/machine/state.go:Begin", "textseg/internal/machine/state.go:State.Transition", "textseg/internal/machine/state.go:State.nextState", "textseg/internal/charprops/property_table.go:LookupFirstChar", "textseg/internal/charprops/property_table_raw.go:lookupIndices,lookupProps"]}
{"id": "C06", "title": "Conformance on arbitrary bytes", "statement": "For every byte string, split it greedily into structurally well-formed UTF-8 sequences and single left-over bytes; the token boundaries are exactly: on both sides of every left-over byte, and between two adjacent sequences exactly where UAX #29 demands one within the maximal run of sequences around it.", "quantifier": "all byte strings", "why_tests_cant": "Arbitrary mixes of valid and invalid data of any length.", "anchors": ["textseg/grapheme_clusters.go:ScanGraphemeClusters", "textseg/internal/charprops/property_table.go:LookupFirstChar", "textseg/internal/machine/state.go:State.Transition"]}
{"id": "C07", "title": "Every invalid byte is its own token", "statement": "A byte that does not belong to a structurally well-formed UTF-8 sequence is always reported as a one-byte token, and no longer token contains such a byte.", "quantifier": "all byte strings and all positions in them", "why_tests_cant": "Positions and contexts of invalid bytes are unbounded.", "anchors": ["textseg/grapheme_clusters.go:ScanGraphemeClusters", "textseg/internal/charprops/property_table.go:LookupFirstChar"]}
{"id": "C08", "title": "No token boundary inside a UTF-8 sequence", "statement": "Every token is either one invalid byte or a concatenation of one or more complete UTF-8 sequences; in particular if the input is valid UTF-8 then every token is valid UTF-8.", "quantifier": "all byte strings; for the corollary all valid UTF-8 texts", "why_tests_cant": "Unbounded inputs.", "anchors": ["textseg/grapheme_clusters.go:ScanGraphemeClusters", "textseg/internal/charprops/property_table.go:LookupFirstChar"]}
{"id": "C09", "title": "A decided token never changes when more data arrives", "statement": "If a call with atEOF=false yields a token, then a call on the same data followed by any further bytes, with either value of atEOF, yields the same token and advance.", "quantifier": "all byte strings data and more, both values of atEOF", "why_tests_cant": "Quantifies over every possible future of the stream.", "anchors": ["textseg/grapheme_clusters.go:ScanGraphemeClusters", "textseg/internal/charprops/property_table.go:LookupFirstChar", "textseg/internal/machine/state.go:State.Transition"]}
{"id": "C10", "title": "Result of streaming is independent of how the data arrives", "statement": "Driving the split function with bufio.Scanner over a reader that delivers the input in any pieces (including one byte at a time and empty reads below the Scanner limit) yields the same tokens, and the same final Err(), for every way of cutting up the same input; whether the reader reports its end together with the last bytes or separately makes no difference either, unless the input ends with exactly as many undecided bytes as the largest buffer holds.", "quantifier": "all inputs and all read schedules", "why_tests_cant": "The number of schedules is exponential in the input length; tests use one drip reader.", "anchors": ["textseg/grapheme_clusters.go:ScanGraphemeClusters", "textseg/grapheme_clusters_test.go:TestScanGraphemeClusters_partial,dripReader"]}
{"id": "C11", "title": "Streaming a text yields exactly its grapheme clusters", "statement": "When no prefix of 65536 bytes at a cluster start is undecided (for instance when every cluster is at most 65532 bytes long) the Scanner emits exactly the tokens of the whole input and Err() is nil; otherwise it emits the tokens before the first such place and then stops with bufio.ErrTooLong.", "quantifier": "all inputs and all read schedules", "why_tests_cant": "Interplay of the buffer growth of bufio.Scanner with unbounded clusters; no test uses a cluster of that size.", "anchors": ["textseg/grapheme_clusters.go:ScanGraphemeClusters"]}
{"id": "C12", "title": "Failure of the reader", "statement": "If the reader fails with an error after delivering some bytes, the Scanner emits the tokens of the delivered bytes (as if they were the whole input) and then Err() is that error.", "quantifier": "all delivered byte strings, all schedules, all error values", "why_tests_cant": "Crash points are unbounded: any byte of any input.", "anchors": ["textseg/grapheme_clusters.go:ScanGraphemeClusters"]}
{"id": "C13", "title": "Waiting is bounded: at most one character of lookahead", "statement": "With atEOF=false the function answers (0, nil, nil) only if the data is empty, or is one undecided cluster: no proper prefix of it is already followed by a UAX #29 boundary and a complete character, or by an invalid byte. Once a complete cluster, followed by a complete character or by a definitely invalid sequence, is in the buffer, a token is produced.", "quantifier": "all byte strings", "why_tests_cant": "Needed for latency and for memory bounds; every prefix of every stream matters.", "anchors": ["textseg/grapheme_clusters.go:ScanGraphemeClusters", "textseg/internal/charprops/property_table.go:LookupFirstChar"]}
{"id": "C14", "title": "Prompt detection of bytes that can never become valid", "statement": "As documented: if the buffer begins with something that cannot possibly be extended to a valid UTF-8 sequence, the lookup reports an error of length 1 (rather than asking for more data).", "quantifier": "all byte strings", "why_tests_cant": "A statement about every extension of every buffer.", "anchors": ["textseg/internal/charprops/property_table.go:LookupFirstChar"]}
{"id": "C15", "title": "Line breaks and controls (GB3, GB4, GB5)", "statement": "CR LF is never separated, and every other occurrence of a CR, LF or Control character forms a token of its own: a token that contains such a character consists of that one character, or is CR LF.", "quantifier": "all byte strings", "why_tests_cant": "Any context on both sides.", "anchors": ["textseg/internal/machine/state.go:State.Transition", "textseg/grapheme_clusters.go:ScanGraphemeClusters"]}
{"id": "C16", "title": "Combining marks stay with their base (GB9, GB9a, GB9b)", "statement": "There is never a token boundary before an Extend, ZWJ or SpacingMark character nor after a Prepend character, unless the start or end of the text, an invalid byte, or a CR/LF/Control is on the other side; consequently a run of combining marks of any length after a base is one token with it.", "quantifier": "all texts, runs of any length", "why_tests_cant": "Runs are unbounded.", "anchors": ["textseg/internal/machine/state.go:State.Transition", "textseg/grapheme_clusters.go:ScanGraphemeClusters"]}
{"id": "C17", "title": "Hangul syllables are never split (GB6-GB8)", "statement": "Every sequence of conjoining jamo L* (V+ | LV V* | LVT) T*, and every L+ and T+ run, of any length, lies in a single token.", "quantifier": "all jamo sequences of any length in any context", "why_tests_cant": "Infinitely many syllable blocks.", "anchors": ["textseg/internal/machine/state.go:State.Transition", "textseg/grapheme_clusters.go:ScanGraphemeClusters"]}
{"id": "C18", "title": "Indic conjuncts are kept together (GB9c)", "statement": "Between two InCB=Consonant characters separated only by InCB=Extend/Linker characters there is no boundary exactly when at least one Linker is among the separators.", "quantifier": "all texts; separators of any number and order", "why_tests_cant": "Unbounded look-behind.", "anchors": ["textseg/internal/machine/state.go:State.Transition", "textseg/internal/machine/state.go:State.nextState", "textseg/grapheme_clusters.go:ScanGraphemeClusters"]}
{"id": "C19", "title": "Emoji ZWJ sequences are kept together (GB11)", "statement": "After ZWJ there is no boundary before an Extended_Pictographic character exactly when the ZWJ is preceded by Extended_Pictographic Extend*; sequences with any number of ZWJ-joined elements are one token.", "quantifier": "all texts; any number of joined elements and modifiers", "why_tests_cant": "Unbounded look-behind and unbounded sequences.", "anchors": ["textseg/internal/machine/state.go:State.Transition", "textseg/internal/machine/state.go:State.nextState", "textseg/grapheme_clusters.go:ScanGraphemeClusters"]}
{"id": "C20", "title": "Flags pair up (GB12, GB13)", "statement": "A maximal run of n regional indicators is cut after every second one counted from the start of the run, so it gives ceil(n/2) tokens (the last one possibly joined with following marks).", "quantifier": "all texts, all n", "why_tests_cant": "Parity over unbounded runs; restart of the state machine at each token must not lose parity.", "anchors": ["textseg/internal/machine/state.go:State.Transition", "textseg/internal/machine/state.go:State.nextState", "textseg/grapheme_clusters.go:ScanGraphemeClusters"]}
{"id": "C21", "title": "ASCII text is split into bytes, except CR LF", "statement": "For input that consists of bytes below 0x80, every byte is its own token except that CR followed by LF is one token.", "quantifier": "all ASCII strings", "why_tests_cant": "Unbounded.", "anchors": ["textseg/grapheme_clusters.go:ScanGraphemeClusters", "textseg/internal/charprops/property_table.go:LookupFirstChar", "textseg/internal/charprops/property_table_raw.go:lookupIndices,lookupProps"]}
{"id": "C22", "title": "Segmentation is local: cutting at a boundary is harmless", "statement": "If there is a token boundary in a text after prefix a, then the tokens of a++b are the tokens of a followed by the tokens of b; so a text may be processed in pieces cut at boundaries, and segmenting a token again gives just that token.", "quantifier": "all byte strings a, b", "why_tests_cant": "Relates three runs on unbounded inputs.", "anchors": ["textseg/grapheme_clusters.go:ScanGraphemeClusters", "textseg/internal/machine/state.go:State.Transition"]}
{"id": "C23", "title": "Character properties agree with the shipped Unicode data", "statement": "For each of the 1112064 Unicode scalar values, looking up its UTF-8 encoding (followed by anything) returns the length of the encoding and exactly the Grapheme_Cluster_Break, Extended_Pictographic and Indic_Conjunct_Break values of GraphemeBreakProperty.txt, emoji-data.txt and DerivedCoreProperties.txt, including the default for unlisted characters.", "quantifier": "all Unicode scalar values and all following bytes", "why_tests_cant": "The tests visit only listed characters; that the other 1.09 million (and everything after the first character) are right is not tested.", "anchors": ["textseg/internal/charprops/property_table.go:LookupFirstChar", "textseg/internal/charprops/property_table_raw.go:lookupIndices,lookupProps", "textseg/internal/charprops/ucd/auxiliary/GraphemeBreakProperty.txt", "textseg/internal/charprops/ucd/emoji/emoji-data.txt", "textseg/internal/charprops/ucd/DerivedCoreProperties.txt"]}
{"id": "C24", "title": "Lookup is total and looks only at the first sequence", "statement": "For every byte string the lookup returns normally; the length is 0 exactly when the string is empty or too short for its first byte, the properties are the error marker exactly when the first byte or a needed continuation byte is wrong (and then the length is 1), and otherwise the length is 1..4 and the result depends on those bytes only.", "quantifier": "all byte strings", "why_tests_cant": "Bounds safety of three chained table reads for every byte combination.", "anchors": ["textseg/internal/charprops/property_table.go:LookupFirstChar", "textseg/internal/charprops/property_table_raw.go:lookupIndices,lookupProps"]}
{"id": "C25", "title": "Overlong, surrogate and out-of-range sequences", "statement": "A structurally well-formed sequence that encodes no Unicode scalar value in shortest form (overlong, surrogate or above U+10FFFF) is treated as one character without any property (never as a control, a newline or a combining mark).", "quantifier": "all 2-, 3- and 4-byte structurally well-formed sequences", "why_tests_cant": "About one million sequences that no test visits; security relevant for overlong newlines.", "anchors": ["textseg/internal/charprops/property_table.go:LookupFirstChar", "textseg/internal/charprops/property_table_raw.go:lookupIndices,lookupProps", "textseg/grapheme_clusters.go:ScanGraphemeClusters"]}
{"id": "C26", "title": "Contract of the boundary state machine within a cluster", "statement": "Starting with Begin on the first character of a cluster and feeding the following characters to Transition, the reported split is the UAX #29 decision for the whole text, up to and including the first split.", "quantifier": "all property sequences with consistent properties, any left context", "why_tests_cant": "Unbounded sequences and contexts.", "anchors": ["textseg/internal/machine/state.go:Begin", "textseg/internal/machine/state.go:State.Transition", "textseg/internal/machine/state.go:State.nextState"]}
{"id": "C27", "title": "Contract of the boundary state machine across clusters", "statement": "As documented (\"which state should be used for the next transition\"): feeding a whole text through Transition, always continuing with the returned state, reports exactly the UAX #29 boundaries.", "quantifier": "all property sequences", "why_tests_cant": "Only sequences crossing several boundaries expose it; the package tests always restart at a boundary.", "anchors": ["textseg/internal/machine/state.go:State.Transition", "textseg/internal/machine/state.go:State.nextState"]}
{"id": "C28", "title": "Packing of properties into a byte is lossless", "statement": "For every Grapheme_Cluster_Break (or emoji) value and every Indic_Conjunct_Break value, the byte made from them gives back both values, different pairs give different bytes, and no such byte equals the error marker.", "quantifier": "all property values", "why_tests_cant": "Finite but all combinations matter; relied on by every other property.", "anchors": ["textseg/internal/charprops/properties.go:MakeCharProperties,CharProperties.GCBProperty,CharProperties.InCBProperty,Error"]}
{"id": "C29", "title": "Property names round-trip", "statement": "Looking up the printed name of a property value gives the value back, the lookup recognises exactly the names of the Unicode data files, and every other string maps to None; a byte that is no value is printed as 0x and its two hexadecimal digits.", "quantifier": "all strings and all property values", "why_tests_cant": "All strings.", "anchors": ["textseg/internal/charprops/properties.go:LookupGCBProperty,LookupEmojiProperty,LookupInCBProperty,GCBProperty.String,InCBProperty.String,CharProperties.String"]}
{"id": "C30", "title": "Table generator: recorded properties", "statement": "After any sequence of Set and BitwiseOr operations on characters, the property of every character in the tree under construction is the result of exactly the operations addressed to it in order, and 0 for characters never addressed.", "quantifier": "all sequences of operations on all runes", "why_tests_cant": "Blocks are allocated lazily and shared by index; any order of operations may occur when the data files change.", "anchors": ["textseg/internal/charprops/gentable/generate.go:treeInProgress.Set,treeInProgress.BitwiseOr,treeInProgress.ensureProps"]}
{"id": "C31", "title": "Table generator: compaction preserves every lookup", "statement": "Whenever the generator finishes, the compacted tables, read the way LookupFirstChar reads them, give every character the property recorded in the tree, although equal blocks are shared. It finishes exactly if at most 1021 blocks of 64 characters outside ASCII were addressed and the two halves of ASCII do not clash with each other; otherwise it panics, so it never writes a wrong table.", "quantifier": "all trees built by any sequence of operations, all characters", "why_tests_cant": "Sharing is decided by hashing block contents across three levels, with two maps whose roles alternate between levels; only the one shipped data set is tested.", "anchors": ["textseg/internal/charprops/gentable/generate.go:treeInProgress.Compact,treeInProgress.buildCompactedBlocks,indexBlockKey,propertyBlockKey"]}
{"id": "C32", "title": "Table generator: storage assumptions", "statement": "The capacity reserved for the compacted index (four times the raw index) is always enough, so the root block is never reallocated while it is being filled, and every index in the result refers to an existing block.", "quantifier": "all trees built by any sequence of operations", "why_tests_cant": "The code comment itself calls it hacky; it must hold for every future data set.", "anchors": ["textseg/internal/charprops/gentable/generate.go:treeInProgress.Compact"]}
{"id": "C33", "title": "Shipped table is the output of the generator on the shipped data", "statement": "Running the generator on the entries of the three shipped Unicode data files produces exactly the arrays committed in property_table_raw.go.", "quantifier": "the whole of the shipped data files and of the committed arrays", "why_tests_cant": "The generator is not run by the tests; a stale or hand-edited table would go unnoticed for unlisted characters.", "anchors": ["textseg/internal/charprops/property_table_raw.go:lookupIndices,lookupProps", "textseg/internal/charprops/gentable/generate.go:BuildRawPropertyTree", "textseg/internal/charprops/generate.go:main"]}
{"id": "C34", "title": "Unicode data file parser: entries", "statement": "For every code point range and field list, written in the UCD line format with any amount of white space and any comment, the parser returns that inclusive range as a half-open one and those fields; blank lines, comment lines and lines without a semicolon are skipped; at the end of the file io.EOF is returned.", "quantifier": "all ranges, all fields, all white space, all comments, all sequences of lines", "why_tests_cant": "Unbounded space of files; tests use one example file.", "anchors": ["textseg/internal/charprops/ucdparse/ucd_scan.go:Scanner.NextEntry,Entry.FirstField,Entry.AllFields,Fields.Strings,Fields.FirstString"]}
{"id": "C35", "title": "Unicode data file parser: malformed ranges are rejected", "statement": "A data line whose range is not one or two hexadecimal numbers below 2^32 separated by \"..\" gives an error, never an entry; the error carries the text of the offending number (of the start, or of the end if the start is a number).", "quantifier": "all lines", "why_tests_cant": "All malformed inputs.", "anchors": ["textseg/internal/charprops/ucdparse/ucd_scan.go:Scanner.NextEntry"]}
{"id": "C36", "title": "Test data parser", "statement": "For every list of segments of scalar values, the line in GraphemeBreakTest.txt format (with any comment) is parsed to the UTF-8 encoding of the whole and to exactly those segments. Every other line is blank, or gives the segments of the 32-bit numbers between its marks (U+FFFD for those that are no scalar values), or stops the parser with an error that quotes the first text that is no such number.", "quantifier": "all segment lists of any length; all files", "why_tests_cant": "If the parser of the conformance tests were wrong the tests would check the wrong thing; it has no test of its own.", "anchors": ["textseg/internal/charprops/ucdparse/testdata_scan.go:TestDataScanner.NextEntry"]}
{"id": "C37", "title": "autoversion selects exactly one implementation", "statement": "For every Go 1.N release from 1.21 up to and including 1.27 exactly one file of the autoversion package provides ScanGraphemeClusters and UnicodeMajorVersion (15 below 1.27, 17 at 1.27); for every other release none does (a compile error, as documented), and never two.", "quantifier": "all Go release numbers", "why_tests_cant": "Needs every past and future toolchain.", "anchors": ["autoversion/textseg/unicode15.go", "autoversion/textseg/unicode17.go", "autoversion/textseg/doc.go"]}
{"id": "C38", "title": "Collecting all tokens of a buffer", "statement": "The helper allTokens(buf, split) returns all the tokens that the split function recognises in buf, in order.", "quantifier": "all buffers of any size", "why_tests_cant": "The returned slices alias the buffer of the Scanner, so what they hold depends on all later reads; tests use inputs of a few bytes.", "anchors": ["textseg/all_tokens_test.go:allTokens"]}
{"id": "C39", "title": "Linear work", "statement": "Splitting a whole buffer at EOF performs at most two property lookups per character plus one per token: the total number of lookups is at most twice the number of bytes.", "quantifier": "all byte strings", "why_tests_cant": "A complexity bound over all inputs (denial of service by crafted text).", "anchors": ["textseg/grapheme_clusters.go:ScanGraphemeClusters"]}
{"id": "C40", "title": "Streaming never hangs or panics", "statement": "However badly the reader behaves (never ending, impossible counts, endless empty reads, errors followed by more data), every call of Scan on a Scanner with ScanGraphemeClusters returns normally.", "quantifier": "all readers, all buffer sizes, any number of calls of Scan", "why_tests_cant": "Quantifies over all readers, including infinite and faulty ones.", "anchors": ["textseg/grapheme_clusters.go:ScanGraphemeClusters", "README.md"]}
{"id": "C41", "title": "Tokens emitted so far are final on an endless stream", "statement": "At every moment while streaming from a reader that counts correctly, even one that never ends: the tokens emitted so far are exactly a prefix of the delivered bytes, and they are the first tokens of the stream whatever is delivered later (as long as no end has been reported).", "quantifier": "all readers, all moments, all continuations", "why_tests_cant": "Infinite executions cannot be run.", "anchors": ["textseg/grapheme_clusters.go:ScanGraphemeClusters"]}
{"id": "C42", "title": "Iterating over the fields of an entry", "statement": "Ranging over AllFields hands the fields to the loop body in order until the body breaks out, without a panic whatever the body does; the iterator is single-use: a second loop over the same iterator value sees only the last field.", "quantifier": "all field texts, all loop bodies (stateful consumers that may stop anywhere)", "why_tests_cant": "Quantifies over all consumers and all stopping points.", "anchors": ["textseg/internal/charprops/ucdparse/ucd_scan.go:Fields.Strings,Entry.AllFields"]}
{"id": "C43", "title": "The data file parsers always come to an end", "statement": "Whatever bytes a file contains and however a reader delivers them, calling NextEntry (of either parser) repeatedly returns an error or io.EOF after finitely many entries, without a panic.", "quantifier": "all files, all readers that come to an end", "why_tests_cant": "Quantifies over all file contents, including binary garbage, and over all ways of delivering them.", "anchors": ["textseg/internal/charprops/ucdparse/ucd_scan.go:Scanner.NextEntry", "textseg/internal/charprops/ucdparse/testdata_scan.go:TestDataScanner.NextEntry"]}
{"id": "C44", "title": "The generator does what the data files say", "statement": "Whenever the generator makes tables from three complete data files, looking up a character in these tables gives the Grapheme_Cluster_Break value of the last entry that covers it (or Extended_Pictographic if emoji-data.txt says so) together with its Indic_Conjunct_Break value; entries about other properties have no influence. From a file with a malformed line, an overlong line or a read error it never makes tables: it returns the error of the first such file.", "quantifier": "all contents of the three data files, all ways of delivering them, all characters", "why_tests_cant": "Quantifies over all future Unicode data files; the tests only ever see the one table that is committed.", "anchors": ["textseg/internal/charprops/gentable/generate.go:BuildRawPropertyTree", "textseg/internal/charprops/generate.go:main"]}
{"id": "C45", "title": "Overlong lines are reported, never skipped or cut", "statement": "If a data file or test file contains a line of more than 65536 bytes, both parsers return what the lines before it mean and then the error for a token that is too long; no later line is interpreted and no part of the overlong line is taken for a line.", "quantifier": "all files, all positions and lengths of the overlong line, all ways of delivering the file", "why_tests_cant": "Quantifies over all files and over all ways a reader may cut them; a test would need a huge file for each.", "anchors": ["textseg/internal/charprops/ucdparse/ucd_scan.go:NewScanner,Scanner.NextEntry", "textseg/internal/charprops/ucdparse/testdata_scan.go:NewTestDataScanner,TestDataScanner.NextEntry"]}
{"id": "C46", "title": "The boundary machine across clusters, exactly", "statement": "Feeding a whole text through Transition, always continuing with the returned state, reports exactly the UAX #29 boundaries, except between regional indicators of a run that directly follows ExtPict Extend*, ExtPict Extend* ZWJ or Consonant [Extend Linker]*, where every decision is the opposite; so it is right about a text exactly if there is no such place in it.", "quantifier": "all texts of any length", "why_tests_cant": "A statement about all texts, and about all texts for which the shortcut of not restarting is safe.", "anchors": ["textseg/internal/machine/state.go:Begin,State.Transition,State.nextState"]}
{"id": "C47", "title": "Invalid bytes are reported after at most two more bytes", "statement": "If no continuation of the data begins with a well-formed UTF-8 sequence, the lookup reports an error of length 1 as soon as there are as many bytes as the first byte announces, which is the case after at most two more bytes; the split function returns the first byte as a token of its own at end of input, and otherwise as soon as there are four bytes.", "quantifier": "all byte strings, all continuations", "why_tests_cant": "Quantifies over all continuations of all byte strings.", "anchors": ["textseg/internal/charprops/property_table.go:LookupFirstChar", "textseg/grapheme_clusters.go:ScanGraphemeClusters"]}
{"id": "C48", "title": "Appending keeps the tokens before", "statement": "Appending anything to a text keeps all its tokens except possibly the last one: they are the first tokens of the longer text. The same holds for arbitrary bytes, valid or not, if the appended bytes do not begin with a UTF-8 continuation byte.", "quantifier": "all texts and byte strings, all appended bytes", "why_tests_cant": "Quantifies over all pairs of texts; what an editor or terminal may cache after an insertion at the end depends on it.", "anchors": ["textseg/grapheme_clusters.go:ScanGraphemeClusters"]}
{"id": "C49", "title": "ASCII characters and lines in arbitrary bytes", "statement": "In any bytes, valid or not, an ASCII character begins a token, except exactly LF after CR and an ASCII character that is not a control after a Prepend character. So at an ASCII control character, and at a CR LF, any byte string can be cut into parts that are segmented independently (line by line processing is safe).", "quantifier": "all byte strings around the character", "why_tests_cant": "Quantifies over all surroundings, including garbage.", "anchors": ["textseg/grapheme_clusters.go:ScanGraphemeClusters"]}
{"id": "C50", "title": "Counting tokens of joined texts", "statement": "Joining two texts never gives more tokens than they have together, and at most two fewer; both bounds are attained.", "quantifier": "all pairs of texts", "why_tests_cant": "A bound over all pairs of texts of any length.", "anchors": ["textseg/grapheme_clusters.go:ScanGraphemeClusters"]}
{"id": "C51", "title": "Keeping the slices of a short input", "statement": "A caller who keeps the slices that Scanner.Bytes returned, instead of copies, still finds the tokens in them after the last call of Scan, if the whole input has at most 2049 bytes, however the reader delivers it (the allTokens helper relies on this). The bound is sharp.", "quantifier": "all inputs of at most 2049 bytes, all readers that do not return impossible counts", "why_tests_cant": "Whether a kept slice is overwritten depends on how the reader cuts the input and on the moments when the buffer moves; there are too many schedules to test.", "anchors": ["textseg/all_tokens_test.go", "textseg/grapheme_clusters_test.go:TestScanGraphemeClusters_partial", "textseg/grapheme_clusters.go:ScanGraphemeClusters"]}
{"id": "C52", "title": "The conformance tests of the repository decide conformance", "statement": "TestScanGraphemeClusters and TestScanGraphemeClusters_partial, run with any file of test cases whose texts have at most 2049 bytes: each subtest passes exactly if the segments in its line are the segmentation UAX #29 demands, and the test as a whole passes exactly if moreover the file is read to its end without error and has no malformed or overlong line. With longer texts a correct line can fail.", "quantifier": "all files of test cases, all ways of delivering them", "why_tests_cant": "A statement about the test itself: what its verdict means for every file it may be given.", "anchors": ["textseg/grapheme_clusters_test.go:TestScanGraphemeClusters,TestScanGraphemeClusters_partial", "textseg/internal/charprops/ucdparse/testdata_scan.go"]}
{"id": "C53", "title": "The source that the generator prints", "statement": "The Go source text that the table generator prints is read by the Go compiler as the declaration of two arrays with exactly the elements of the tables; it is printed exactly if every index fits in a byte, and otherwise the generator panics; the text determines the tables. So tables printed from complete data files give every character the properties the files list, no source is printed from a malformed file, and from the Unicode 17 data the text has exactly the tokens of the committed property_table_raw.go.", "quantifier": "all trees, all data files and ways of delivering them", "why_tests_cant": "Quantifies over all tables that may be printed and all data files; a test sees one.", "anchors": ["textseg/internal/charprops/generate.go:main", "textseg/internal/charprops/property_table_raw.go"]}
{"id": "C54", "title": "What the table tests of the repository establish", "statement": "The three tests of property_table_test.go that read a data file (TestLookupFirstChar_graphemeBreakProperty, _emojiExtendedPictographic, _indicConjunctBreakProperty), run with any data file: there is one subtest for each code point of each entry concerned, and the test passes exactly if the file is read to its end without error and every code point listed has, in the part that is tested, the wanted code and length. With the committed files and table all 18101, 2848 and 3148 subtests pass, as do the literal cases. A character that no file lists is never looked up: a table that is wrong there passes all the tests.", "quantifier": "all data files, all ways of delivering them, all tables", "why_tests_cant": "A statement about the test itself: what its verdict means for every file and table, including what it cannot see.", "anchors": ["textseg/internal/charprops/property_table_test.go", "textseg/internal/charprops/property_table.go:LookupFirstChar", "textseg/internal/charprops/ucdparse/scanner.go"]}
{"id": "C55", "title": "Different spellings of the same text have the same tokens", "statement": "Composing or decomposing characters (Hangul syllables into jamo, letters, spacing marks and marks into a base and a mark), reordering nonspacing marks, or replacing characters by others with the same properties, anywhere and any number of times, changes neither the number of tokens nor which token is which. With every Hangul syllable decomposed, the tokens are the decomposed tokens. The one canonical decomposition of Unicode that is not of this form, U+21AE, is an exception.", "quantifier": "all texts, all respellings", "why_tests_cant": "Quantifies over all pairs of texts that are respellings of each other in any number of steps.", "anchors": ["textseg/grapheme_clusters.go:ScanGraphemeClusters"]}
{"id": "C56", "title": "Emoji sequences are never split", "statement": "The emoji sequences of UTS #51, that is emoji characters, presentation and modifier sequences, keycaps, tag sequences and sequences of any length joined by ZWJ, with the emoji of the committed emoji-data.txt, are never split wherever they occur in a text, and alone are a single token; so is a flag, unless a regional indicator comes before it. Only joined sequences with elements such as digits, which are formally emoji, are split.", "quantifier": "all emoji sequences of any length, all surroundings", "why_tests_cant": "There are infinitely many emoji sequences, and infinitely many surroundings.", "anchors": ["textseg/grapheme_clusters.go:ScanGraphemeClusters", "textseg/internal/charprops/ucd/emoji/emoji-data.txt"]}
{"id": "C57", "title": "Tokens agree with the UTF-8 decoding of Go", "statement": "For any input, valid or not: decoding the tokens one after the other with utf8.DecodeRune (or []rune, or range) gives exactly the runes and widths that decoding the whole input gives, so no token boundary splits or creates a character and the rune counts add up. The input is valid UTF-8 exactly if every token is.", "quantifier": "all byte strings, valid UTF-8 or not", "why_tests_cant": "The library and the Go standard library have different notions of a sequence on invalid input; that they never get out of step has to hold for every byte string.", "anchors": ["textseg/grapheme_clusters.go:ScanGraphemeClusters", "textseg/internal/charprops/property_table.go:LookupFirstChar", "textseg/grapheme_clusters_test.go"]}
{"id": "C58", "title": "The report of a failing conformance test", "statement": "When a conformance subtest fails, composing its report ends without a panic whatever the input, and the pieces it shows are the input taken apart. For a text, the report lists for every character its bytes, its code point and the names of its properties, then the tokens the library finds and the wanted segments; these last two are shown differently whenever they differ. A report is printed exactly if the subtest fails.", "quantifier": "all inputs and wanted segments (for the exact text of the report: all texts of at most 2049 bytes)", "why_tests_cant": "The report is only produced when the library is wrong, so no passing test run ever executes that code.", "anchors": ["textseg/grapheme_clusters_test.go:TestScanGraphemeClusters,TestScanGraphemeClusters_partial,formatBytes,formatByteRanges", "textseg/internal/charprops/properties.go:CharProperties.String"]}
{"id": "C59", "title": "The work of streaming", "statement": "Streaming through bufio.Scanner, for any reader and any buffer: the split function is called at most once per token and once per call of Read (and once more at the end), and the property lookups it makes are at most one per byte and one per token, plus, for each call of Read, three more than the longest cluster has bytes. This is not only an upper bound: with a reader that gives one byte at a time, a single cluster of n bytes costs at least n(n-1)/8 lookups, because each call starts again at the beginning of the cluster.", "quantifier": "all readers (any split into pieces, empty reads, failures), all inputs, all buffer sizes", "why_tests_cant": "Work depends on how the reader cuts the data and on cluster lengths; tests measure neither, and quadratic behaviour does not show on short inputs.", "anchors": ["textseg/grapheme_clusters.go:ScanGraphemeClusters", "README.md", "textseg/grapheme_clusters_test.go:dripReader"]}
{"id": "C60", "title": "Calls at the same time", "statement": "Any number of calls of the split function may run at the same time, on the same data or on overlapping slices, under any schedule: a call only reads, and only within its slice, and as long as nobody writes to that slice it returns exactly what it would return alone. If other goroutines do write to the data during the call, it still does not panic, returns after at most two reads per byte without ever waiting, and its result still has the right shape (a token that is a beginning of the slice, at least one byte at the end of input); but its boundary may then be right for the contents of the slice at no single moment.", "quantifier": "all numbers of concurrent calls, all (overlapping) slices, all memory contents, all interleavings with arbitrary writes by other goroutines", "why_tests_cant": "The race detector and tests see a handful of schedules; and no test passes data that changes while it is being scanned.", "anchors": ["textseg/grapheme_clusters.go:ScanGraphemeClusters", "textseg/internal/charprops/property_table.go:LookupFirstChar", "textseg/internal/machine/state.go:State.Transition"]}
{"id": "C61", "title": "The tokens are the matches of the regular expression of UAX #29", "statement": "UAX #29 defines extended grapheme clusters twice: by boundary rules and by a regular expression (tables 1b and 1c: crlf | Control | precore* core postcore*, where core is a Hangul syllable, a pair of regional indicators, a pictographic sequence joined by ZWJ, an Indic conjunct or any single non-control). The tokens of any text are exactly what matching that expression as far as possible, again and again, gives: each token matches, no longer prefix of what is left matches, and a text is a single token exactly if it matches.", "quantifier": "all texts", "why_tests_cant": "The expression matches infinitely many strings of unbounded length, and greedy matching has to agree with the one-character look-ahead of the code on all of them.", "anchors": ["textseg/grapheme_clusters.go:ScanGraphemeClusters", "textseg/internal/machine/state.go:State.Transition"]}
{"id": "C62", "title": "Where the past no longer matters: random access and editing", "statement": "Boundaries after a character that is neither Extend, nor ZWJ, nor a regional indicator do not depend on anything before that character, whatever bytes that is: they are those of the input that begins with it, and its tokens but the first are the last tokens of the whole. So segmentation can start in the middle, and when a part of an input is replaced, all tokens before it but the last and all tokens from the next such character on but the first are kept. For regional indicators there is no such limit: one more in front of a run of them of any length moves every boundary in the run.", "quantifier": "all byte strings before and after, all edits, all positions", "why_tests_cant": "Quantifies over pairs of inputs that differ in an arbitrary part, and over distances of any length.", "anchors": ["textseg/grapheme_clusters.go:ScanGraphemeClusters", "textseg/internal/machine/state.go:State.nextState"]}
{"id": "C63", "title": "The memory of streaming", "statement": "Streaming through bufio.Scanner needs memory in proportion to the longest cluster, not to the input: after any number of calls of Scan the buffer is not longer than the initial one, 4096 bytes or twice (the longest cluster plus three bytes), whichever is largest, and never longer than the configured limit (or the initial buffer); the buffers it has replaced had at most three bytes more than the longest cluster each and twice that together. This also holds on streams that never end. With the default settings a text with clusters of at most 2045 bytes is read through 4096 bytes. Conversely the buffer is at least as long as every token returned.", "quantifier": "all readers (any pieces, failures, endless), all inputs, all buffer sizes and limits, any number of calls of Scan", "why_tests_cant": "Needs streams of unbounded length, and all ways in which the data may be cut relative to the buffer.", "anchors": ["textseg/grapheme_clusters.go:ScanGraphemeClusters", "README.md"]}
{"id": "C64", "title": "How long the fields of an entry stay valid", "statement": "The fields of an entry of the data file parser are a part of the buffer that the parser reads lines into. A loop that uses each entry before it asks for the next one, as the table generator and the tests do, sees the right fields for every file and every reader. An entry that is kept longer is still right at the end of a file of up to 2049 bytes; in longer files its fields may have been overwritten with later lines.", "quantifier": "all files, all readers (any pieces, failures, endless), all uses of the entries", "why_tests_cant": "Whether a kept entry is overwritten depends on the length of the file and on how the reads fall; small test files never show it.", "anchors": ["textseg/internal/charprops/ucdparse/ucd_scan.go:Scanner.NextEntry,Entry,Fields", "textseg/internal/charprops/gentable/generate.go"]}
{"id": "C65", "title": "The generator as a command: crashes, errors and the exit status", "statement": "Running generate.go changes no file but property_table_raw.go, and that one only after all three data files have been opened, read to their end and accepted, and the whole source has been printed and formatted. So wherever the run is interrupted, and whatever the operating system answers, the file is as before or it is a beginning of the complete new text; with a missing, malformed or unreadable data file it is never touched and the exit status is not 0, and the message names the first bad file. The status is 0 exactly if the file was replaced, 1 exactly if an error was printed. With the committed data files and a working disk the committed table is reproduced. But the status says nothing about the writing itself: with a full disk it is 0 and the file is truncated.", "quantifier": "all answers of the operating system (open, read, create, write), all contents of the data files, all points at which the run may be interrupted", "why_tests_cant": "Tests do not run the generator at all, let alone with failing disks or interrupted at every point.", "anchors": ["textseg/internal/charprops/generate.go:main", "textseg/internal/charprops/gentable/generate.go:BuildRawPropertyTree"]}
{"id": "C66", "title": "The source text means the model", "statement": "Whatever data is passed (nil or not) and whatever atEOF is, executing the text of the Go source files of the library according to the language specification returns normally, with the advance, token and error that the model returns; it never panics, never runs forever, never leaves the range of int (of 32 or more bits) and never meets a value of a wrong type. A caller who repeats this until a text is used up gets exactly its extended grapheme clusters, and a bufio.Scanner that splits by it behaves, for every reader, as one that splits by the model, so that a text delivered in any pieces is split into its clusters; also a caller who keeps the slices, and allTokens, get the same as with the model. The same holds for LookupFirstChar, for the state machine in every state (also those that do not exist, where it panics), and for all functions for names and printing.", "quantifier": "all data of a length that an int can express, both values of atEOF, all widths of int from 32 on; all states, properties and strings", "why_tests_cant": "That a model was read off the code correctly cannot be tested on all inputs; here the text itself is parsed and executed inside the proof assistant.", "anchors": ["textseg/grapheme_clusters.go:ScanGraphemeClusters", "textseg/internal/machine/state.go", "textseg/internal/charprops/property_table.go", "textseg/internal/charprops/property_table_raw.go", "textseg/internal/charprops/properties.go"]}
{"id": "C67", "title": "The source text of the table builder means the model", "statement": "For every sequence of calls of Set and BitwiseOr on a new tree followed by Compact, executing the text of the Go source files of the package gentable according to the language specification, with a memory in which slices share arrays and append may write in place or move, returns a table with the contents that the model gives, or panics if the model panics; it never runs forever and never meets a value of a wrong type. It returns a table exactly if no call of Set with the value 4 meets a character that has a value, at most 1021 blocks outside ASCII are mentioned and there is no clash with ASCII; and if its indices fit into a byte, looking up any character in it gives the value the calls recorded. This does not depend on the capacities that append chooses.", "quantifier": "all sequences of calls of any length, all characters and values, all growth strategies of append, all widths of int from 32 on", "why_tests_cant": "The code builds blocks through slices, maps and pointers that alias each other, and appends to the array it is filling; whether a write goes to a stale copy depends on capacities, which tests do not vary.", "anchors": ["textseg/internal/charprops/gentable/generate.go:newTreeInProgress,treeInProgress.Set,treeInProgress.BitwiseOr,treeInProgress.ensureProps,treeInProgress.Compact,treeInProgress.buildCompactedBlocks,indexBlockKey,propertyBlockKey", "textseg/internal/charprops/gentable/property_tree.go"]}
{"id": "C68", "title": "The source text of the parser of data files means the model", "statement": "For every reader: executing the text of ucdparse/ucd_scan.go according to the language specification, in a loop that calls NextEntry until it returns an error and looks at Start, End, FirstField() and AllFields() of each entry, shows exactly the entries of the data lines of the file, in order, and then the error of the reader (io.EOF at the end of the file), or, at the first malformed line, the error whose message quotes the text that is no hexadecimal number; it panics only if bufio.Scanner does, never runs forever and never meets a value of a wrong type. This holds although the fields are a part of a buffer that is overwritten by the next line.", "quantifier": "all files, all readers (any pieces, failures, endless), all widths of int from 32 on", "why_tests_cant": "That a model was read off the code correctly cannot be tested on all inputs; here the text itself is parsed and executed inside the proof assistant, with a memory, so that aliasing of the line buffer counts.", "anchors": ["textseg/internal/charprops/ucdparse/ucd_scan.go:NewScanner,Scanner.NextEntry,Entry,Fields.FirstField,Fields.AllFields"]}
{"id": "C69", "title": "The source text of BuildRawPropertyTree means the model", "statement": "Executing the text of gentable.BuildRawPropertyTree, and of everything of the repository that it calls, according to the language specification: if one of the three data files cannot be opened, the error of os.Open for the first such file is returned. Otherwise, whatever the files contain and however they are delivered: a table with the contents that the model of the generator gives is returned, or, if the model gives an error (a malformed or overlong line, or a failing reader), an empty table and the error whose message has the name of the first such file and the error of its parser, or it panics if the model panics; it never runs forever and never meets a value of a wrong type. From complete files it returns a table exactly if the data has no conflict, concerns at most 1021 blocks outside ASCII and ASCII does not clash; and a table whose indices fit into a byte gives every character the properties the files list for it. From the three data files in the repository it returns exactly the contents of the committed tables.", "quantifier": "all contents of the three files, all readers (any pieces, failures, endless), all results of os.Open, all growth strategies of append, all widths of int from 32 on", "why_tests_cant": "That a model was read off the code correctly cannot be tested on all inputs; here the text itself is parsed and executed inside the proof assistant, with three parsers whose line buffers and a tree whose blocks share one memory.", "anchors": ["textseg/internal/charprops/gentable/generate.go:BuildRawPropertyTree", "textseg/internal/charprops/ucdparse/ucd_scan.go", "textseg/internal/charprops/properties.go:LookupGCBProperty,LookupEmojiProperty,LookupInCBProperty"]}
{"id": "C70", "title": "The source text of the parser of the conformance tests means the model", "statement": "For every reader: executing the text of ucdparse/testdata_scan.go according to the language specification, in a loop that calls NextEntry until it returns an error, keeps the entries and looks at their Input and WantSegments only when all lines have been read, shows for every test line of the file the UTF-8 encoding of the text and of each of its segments (nil if there is none), in order, and then the error of the reader (io.EOF at the end of the file), or, at the first malformed line, the result of fmt.Errorf with what is malformed in it. It panics only if bufio.Scanner does, never runs forever and never meets a value of a wrong type. No entry is changed by reading further lines. From the file GraphemeBreakTest.txt in the repository it shows 766 tests, all of which are segmentations that UAX #29 demands.", "quantifier": "all files, all readers (any pieces, failures, endless), all growth strategies of append, all widths of int from 32 on", "why_tests_cant": "Whether append reuses an array that an earlier entry or segment still refers to depends on capacities, which tests do not vary; here the text itself is parsed and executed inside the proof assistant, with a memory.", "anchors": ["textseg/internal/charprops/ucdparse/testdata_scan.go:NewTestDataScanner,TestDataScanner.NextEntry,TestDataEntry"]}
{"id": "C71", "title": "The source text of the command that generates the table means the model", "statement": "Executing the text of charprops/generate.go (with the packages it uses) according to the language specification, from the opening of the data files to the exit status: if a data file cannot be opened, one message with the error of os.Open for the first such file is printed and the status is 1; if a file is malformed, overlong or cannot be read to its end (and the data does not conflict) one message with the name of the first such file and its error is printed and the status is 1; if the data conflicts or does not fit, the command panics; otherwise exactly the text that the model of main prints is formatted, an error of the formatter or of os.Create is printed with the status 1, and if there is none property_table_raw.go is created, as much of the formatted text as the system accepts is written to it, and the status is 0. Nothing else is done that is seen from outside, and before a panic nothing at all; if the process is killed, it has printed the message, or property_table_raw.go is a beginning of the complete text, or nothing has been done. If the status is 0, the text declares tables with which LookupFirstChar finds the properties that the files list; from the committed data files it has the tokens of the committed property_table_raw.go.", "quantifier": "all contents of the three files, all readers (any pieces, failures, endless), all results of os.Open, os.Create and Write, all formatters, all growth strategies of append, all widths of int from 32 on", "why_tests_cant": "That a model was read off the code correctly cannot be tested on all inputs and all answers of the operating system; here the text itself is parsed and executed inside the proof assistant.", "anchors": ["textseg/internal/charprops/generate.go:main", "textseg/internal/charprops/gentable/generate.go:BuildRawPropertyTree"]}
{"id": "C72", "title": "The source texts of autoversion select what they document", "statement": "The texts of the files of autoversion/textseg, read with the rules for build constraints, imports and declarations, compile with every release of Go. With the releases 1.21 to 1.26 the package has a function ScanGraphemeClusters, of the type bufio.SplitFunc, that does for all arguments what that of the package for Unicode 15 does, and UnicodeMajorVersion is 15; with 1.27 the same with Unicode 17, and then for all data it does what executing the source texts of this repository does; with all other releases there is neither. ScanUTF8Sequences, TokenCount and AllTokens do for all releases and arguments what those of the package for Unicode 15 do. The two forms of the constraints agree for every release, and go.mod requires exactly the modules that are imported (and admits the releases from 1.25 on only). The package for Unicode 15 is compiled in with every release, also with 1.27.", "quantifier": "all releases of Go, all arguments, all behaviours of the other packages", "why_tests_cant": "A test runs with one release of Go; whether exactly one file is selected for every other release, and passes its arguments on unchanged, is not seen.", "anchors": ["autoversion/textseg/unicode15.go:ScanGraphemeClusters,UnicodeMajorVersion", "autoversion/textseg/unicode17.go:ScanGraphemeClusters,UnicodeMajorVersion", "autoversion/textseg/version_agnostic.go:ScanUTF8Sequences,TokenCount,AllTokens", "autoversion/textseg/doc.go", "autoversion/go.mod", "go.mod"]}
