# Formal model of apparentlymart/go-textseg in Lean 4

A plan was committed before the proofs (first version of this file in the git history); this is the plan brought up to date
with what was done. `properties.jsonl` lists the properties in English, `MANIFEST.json` names the theorems.

## Layout

| Directory | Content |
|---|---|
| `lean/Verif/Model/` | executable model of the Go code, function by function; every definition cites file and lines in /repo |
| `lean/Verif/Text/` | lines of files of /repo, literally, as numbers (`Model/Text.lean`); `tools/check_text.sh` prints them and compares them with /repo |
| `lean/Verif/GoLang/` | lexer, parser and interpreter for the part of Go that the library uses, after go.dev/ref/spec; `Program.lean`: the syntax trees of the five source files (the kernel checks that the parser finds them in the texts) |
| `lean/Verif/Spec/` | small specifications that do not mention the model: rules of UAX #29, UTF-8 sequences, the Unicode data as ranges, file formats, what a reader delivers |
| `lean/Verif/Proofs/` | lemmas |
| `lean/Verif/Props/` | the property theorems, named `C<nn>_...`, each with an example that meets its hypotheses |
| `tools/` | Python scripts: transcription of data into Lean literals, `properties.jsonl`, `MANIFEST.json` |
| `seeded/` | seeded bugs: `mutations.py` (the edits), `run.py` (applies them to a scratch copy and rebuilds), `LOG.jsonl` (results) |

## Modelling conventions

* `[]byte` is `List UInt8`; `int` lengths and counters are `Nat` (bounded by the length of a Go slice, so they cannot
  overflow); `CharProperties`, `GCBProperty`, `InCBProperty` are `UInt8` with the same constants and bit operations;
  `uint16` and `int32` (`rune`) of the generator and the parsers are `UInt16` and `Int32`, with wrap-around; `State` is `Int`
  with the same constants.
* A Go panic is a value: `Go α = Except GoPanic α`. Every index and slice expression is bounds-checked in the model, and
  explicit `panic(...)` calls are modelled; so "never panics" is a theorem (C01, C32, C40, C43), not an assumption.
* Loops are structural recursion on fuel; running out of fuel is a distinguished panic (`GoPanic.outOfFuel`); that it never
  occurs is proved, and is the proof of termination.
* `nil` versus empty token is `Option`.
* A slice is a value, except where aliasing or concurrency matters: for C60 a slice is a region of a memory; for C38, C51 and C52 the model also knows in which buffer of the Scanner
  and at which offsets a returned slice lies, and the buffers that were given up (`Model/AllTokens.lean`).
* An `io.Reader` is an arbitrary state machine (`Reader σ`): for each length of the slice it is given it may store any bytes,
  return any count (also an impossible one) and any error. Theorems about streaming quantify over all of them.

## What is modelled

| File in /repo | Model | Not modelled |
|---|---|---|
| textseg/grapheme_clusters.go | `Model/Scan.lean`; at the level of single reads `Model/Concurrent.lean` | – |
| textseg/internal/machine/state.go | `Model/Machine.lean` | – |
| textseg/internal/charprops/properties.go | `Model/CharProps.lean` | – |
| textseg/internal/charprops/property_table.go | `Model/Lookup.lean`; at the level of single reads `Model/Concurrent.lean` | – |
| textseg/internal/charprops/property_table_raw.go | `Model/TableData.lean` (transcribed by `tools/gen_table.py`, checked against the text in `Text/TableText.lean`) | – |
| textseg/internal/charprops/ucdparse/*.go | `Model/UCDParse.lean` | the text of error messages beyond the offending string |
| textseg/internal/charprops/gentable/*.go | `Model/GenTable.lean`; opening of files and wrapping of errors in `Model/GenMain.lean` | – |
| textseg/internal/charprops/generate.go | `Model/GenPrint.lean`, `Model/GenTable.lean` (`outputIndices`, `outputProps`); `main` with its effects and exit status in `Model/GenMain.lean` | `go/format` (a parameter of `main`), the wording of messages |
| textseg/all_tokens_test.go | `Model/AllTokens.lean`; literal cases in `Tests/Unit.lean` | – |
| textseg/grapheme_clusters_test.go | `Model/ConformanceTest.lean`, `Model/Report.lean` (what a failing subtest prints), `Model/Readers.lean` (`dripReader`) | names of subtests, text of unexpected errors |
| textseg/internal/charprops/property_table_test.go | `Model/TableTest.lean` | the names and messages of the subtests |
| textseg/internal/charprops/ucdparse/*_test.go | `Tests/Unit.lean` (the literal cases, run on the model; tests, not proofs) | – |
| autoversion/textseg/*.go, go.mod, autoversion/go.mod | `Model/AutoVersion.lean`; the texts themselves in `GoLang/Package.lean` (C72) | the v15 module, which is not in /repo |
| textseg/internal/charprops/ucd/**/*.txt | `Verif/Text/` (literally), `Spec/UCDData.lean` (transcribed by `tools/gen_ucd.py`, checked against the text) | – |

Standard library code that the model transcribes because the code hands control to it (not in /repo, so the transcription is
trusted): `bufio.Scanner` (`Scan`, `advance`, `setErr`, `Err`, buffer growth and shifting, empty-read and empty-token limits),
`bufio.ScanLines` (`Model/BufioScanner.lean`); `bytes.Cut`, `bytes.TrimSpace`, `strconv.ParseUint/ParseInt` in base 16 and 32
bit, `utf8.EncodeRune/AppendRune` (`Model/GoBytes.lean`; the simplified `TrimSpace` there is proved to agree with the code of the
standard library, including its ASCII fast path and decoding from the end: `Model/TrimSpace.lean`, `goTrimSpace_eq` in
`Proofs/TrimSpace.lean`); `utf8.DecodeRune` (`Model/DecodeRune.lean`); `bytes.Reader`, `iotest`-like readers (`Model/Readers.lean`).

## Trusted base

* The Lean 4.33.0 kernel. Axioms: at most `propext`, `Classical.choice`, `Quot.sound` (checked by `vcheck`); none added; no
  `native_decide`, no `bv_decide`. Large finite checks (the committed table against the data files, on the whole code space)
  are evaluated in the kernel (`decide +kernel`).
* For the library itself (grapheme_clusters.go, state.go, properties.go, property_table.go, property_table_raw.go): that
  `GoLang/Lexer.lean`, `Parser.lean` and `Eval.lean` describe Go. These do not mention anything of the library. The functions of
  `Model/` for these files need not be trusted: C66 proves that the texts mean them. (Not covered by C66: capacities of slices —
  `e[:hi]` panics beyond the length, so never panicking is proved for all capacities —, and running out of memory or stack.)
  That the files compile is assumed: the interpreters do not check for redeclarations, unused names and imports.
* For the table builder (gentable/generate.go from `newTreeInProgress` on, property_tree.go): that `GoLang/Lexer.lean`,
  `GoMem/Parser.lean` and `GoMem/Eval.lean` describe Go (with a memory: shared arrays, `append` in place or moving with an arbitrary
  new capacity, maps, pointers to structs). The functions of `Model/GenTable.lean` for this code need not be trusted: C67.
* For the parser of the data files (ucdparse/ucd_scan.go) the same: the functions of `Model/UCDParse.lean` need not be trusted: C68.
* For `BuildRawPropertyTree` the same: C69.
* For ucdparse/testdata_scan.go the same: C70.
* For the command charprops/generate.go the same: C71. (Its calls of `fmt.Fprint…` are interpreted for a text without verbs and for the verb
  `%0nx`; `format.Source` is a parameter, and so is what `fmt.Sprintf`, `Errorf` and `Fprintf` make of a format and its arguments: an unknown
  function of the format and the values of the arguments, of a slice of bytes its contents. The errors of strconv are one error.
  The process can be killed after any effect, which ends it with the status 137; being killed at other times is not distinguished from being
  killed after the previous effect.)
* For autoversion: that `GoLang/Package.lean` describes build constraints, imports and go.mod; `Model/AutoVersion.lean` need not be trusted: C72.
* For the rest (tests): the reading of the Go source and of the Go semantics (slices, integer
  conversions, maps, `switch`, build constraints), as written in `Model/`, and the transcription of the standard library functions
  named above.
* The embedded texts in `Verif/Text/` are the files of /repo: the five source files of the library, those of the table builder, of the parsers, of the command and of autoversion, the two go.mod files, and the four Unicode data files.
  `tools/gen_text.py` writes them, `tools/check_text.sh` prints the bytes that the theorems are about and compares them with
  /repo. The tables in `Model/TableData.lean` and the entries in `Spec/UCDData.lean` (written by `tools/gen_table.py` and
  `tools/gen_ucd.py`) need not be trusted: the kernel checks them against these texts (C33, C53).
* For C60: the memory is sequentially consistent and the Go compiler neither repeats nor invents reads of bytes (the Go memory
  model forbids both); the two tables are never assigned to. The result of a call on data that changes is proved for arbitrary
  results of the reads, so it does not depend on the order of memory accesses.

## The properties and how they are proved

"Invariant" means an induction over all runs; there are no bounds on sizes or steps.

* **C01–C04** (a single call; repeated calls): the loop of `ScanGraphemeClusters` is characterised by a relation on the remaining
  bytes (`Proofs/Scan.lean`), by induction on the loop.
* **C05, C06** (conformance): the rules GB1–GB999 as predicates on (text before, text after), with unbounded look-behind written as
  "the text before ends with ..." (`Spec/UAX29.lean`), a segmentation as the pieces that are cut exactly where the rules say
  (`Spec/Segmentation.lean`). The invariant ties the state of the machine to the whole text since the last boundary
  (`Proofs/Machine.lean`, `Rules.lean`); boundaries that look behind the last boundary are shown not to matter. C06 is the same
  for arbitrary bytes, where an ill-formed byte is a piece of its own (`Spec/Bytes.lean`).
* **C07, C08, C15–C22, C48–C50**: consequences of C05 and C06, stated about tokens of texts or bytes.
* **C09, C13**: a decided token is final; waiting only if two continuations differ: induction on the loop.
* **C10–C12, C40, C41**: invariant of the Scanner (the window is what has arrived and has not been emitted) for every reader
  (`Proofs/BufioScanner.lean`, `ScannerTotal.lean`, `Endless.lean`).
* **C14** (prompt detection): false of the code; `C14_not_prompt` is the counterexample; **C47** is the exact statement.
* **C23–C25**: the committed arrays are compared with the ranges of the data files by a checker that is proved sound and run
  in the kernel over the whole code space.
* **C26** (machine within a cluster) is the invariant of C05. **C27** (machine across clusters): false of the code;
  `C27_continuing_is_wrong` is the counterexample; **C46** is the exact statement: where it is wrong, and for which texts it is right.
* **C28, C29**: packing and names; over all byte values and all strings.
* **C30–C32** (generator): refinement of the tree with lazily allocated blocks to a function from numbers to bytes
  (`Proofs/GenTree.lean`, `GenOps.lean`), compaction as a function of it (`GenCompact.lean` to `GenZero.lean`).
* **C33, C44** (generator on data files): C44 for all data files; C33 by evaluating the compaction of the Unicode 17 data in the kernel, for
  any files with these entries and, in particular, for the bytes of the committed files: a checker for lines of that layout
  (`Proofs/DataText.lean`) is proved sound with respect to the file format of `Spec/UCDFormat.lean` and evaluated on all 16402
  lines by the kernel. So C23 also holds with respect to the text of the files.
* **C34–C36, C42, C43, C45** (parsers): against the file formats in `Spec/UCDFormat.lean` and `Spec/TestLine.lean`, for all files and all
  readers.
* **C37**: build constraints as predicates on the release number.
* **C38** (allTokens): false of the code for inputs over 2049 bytes (`C38_false_for_longer_inputs`); **C51** is the part that holds, for
  all readers; number and lengths of the tokens are right for all inputs.
* **C39** (work): the scan instrumented with a counter of lookups.
* **C52**: what the verdict of the repository's own conformance tests means; and that they pass with the committed
  GraphemeBreakTest.txt, whose 766 tests are also a test of the specification of UAX #29 used here.
* **C53**: the text that generate.go prints, read back with the lexical rules of Go (`Spec/GoSource.lean`). The lines of the
  committed property_table_raw.go are embedded literally (`Text/TableText.lean`), and the kernel checks that they read as the
  two tables of the model.
* **C54**: what the verdict of the table tests means, for any data file and any lookup function; with the committed files (all
  24097 subtests) by evaluation of the checker of C33 in the kernel.
* **C55** (spellings): the segmentation as a recursive function that carries the facts about the text before; two blocks of
  characters can be exchanged if they agree in their effect on these facts (`Proofs/Canonical.lean`). UnicodeData.txt is not in
  /repo, so the steps are described by the properties of the characters, except for Hangul.
* **C56** (emoji): the sequences of UTS #51 as inductive predicates (`Spec/Emoji.lean`), with the emoji properties of emoji-data.txt
  (transcribed by `tools/gen_emoji.py`, checked against the text by the checker of C33); that all emoji that can be joined are
  pictographic is checked by a verified comparison of sorted ranges.
* **C57** (Go's decoding): `utf8.DecodeRune` is modelled and proved to see characters where there are characters in UTF-8 and
  single bytes elsewhere (`Spec/Runes.lean`); it is in step with the pieces of `Spec/Bytes.lean`, hence with the tokens.
* **C58** (reports): the printing code of the conformance tests, by induction over the input; the list of segments can be read
  back from its printed form.
* **C59** (work of streaming): the Scanner loop is instrumented (`Model/StreamCost.lean`; forgetting the counters gives back
  `Model/BufioScanner.lean`) and its work bounded by induction over rounds and calls of `Scan`, on top of the invariant `At` of
  the streaming proofs; the lower bound likewise, for readers that give at most one byte.
* **C60** (concurrency): slices are regions of a shared memory and a call is a program of single reads (`Model/Concurrent.lean`);
  run alone it is the function of `Model/Scan.lean`. Interleaving with other calls and with arbitrary writes of the rest of the
  program is a transition system; the theorems are invariants of its executions. For data that changes during the call, a
  predicate over all paths of the program (whatever each read returns) is proved by following the code.
* **C61** (regular expression): the expression of UAX #29 is written with language combinators (`Spec/Grammar.lean`). That no rule
  breaks a text is equivalent to a match of the whole text (both directions by induction along the text, one lemma for each part
  of the expression); since the rules forget everything at a boundary, greedy matching follows.
* **C62** (random access, editing): the facts the rules remember (`Flags`) are the same after such a character whatever they were
  before, and bytes are read afresh at a byte that begins a sequence, so the boundary predicates of the two inputs agree piece by
  piece. The limit for regional indicators is by their parity.
* **C63** (memory): the buffer is replaced only when it is full of bytes that are undecided, and undecided bytes are at most three
  more than the token they will become part of (as for C13). An invariant of rounds, generic in the invariant that knows the
  remaining input (`At` for readers that deliver a given input, `Emitted` for endless ones, where what counts is the record of what
  has been delivered at the end).
* **C64** (fields as slices): `Model/UCDSlices.lean` repeats `NextEntry` with references into the buffers of the line Scanner. That
  the reference reads as the value when it is returned follows from `bytes.Cut` and `bytes.TrimSpace` returning parts of their
  argument; that it still does at the end of a short file from the invariant of C51.
* **C65** (the generator as a command): `Model/GenMain.lean` is `main` as a list of effects and an exit status, for arbitrary answers of
  the operating system; an interruption is a prefix of the effects. By case analysis of `main`, on top of C44 and C53; the tokens of
  the result are those of the text before `format.Source`, which is assumed to keep them (`KeepsTokens`).
* **C66** (the source text means the model): the texts of all five source files that a program importing the library is compiled from
  (`Verif/Text/`) are parsed by a Lean function (evaluated by the kernel; for the 2357 lines of tables by a checker proved sound),
  and executed by an interpreter (`GoLang/Eval.lean`) with `int`s that wrap around, constants, typed values, scopes, methods and
  panics. Symbolic execution of every function (`Proofs/Go*.lean`), induction for the three loops. So C01–C08, C15–C25 and all other
  consequences of the functions `ScanGraphemeClusters`, `LookupFirstChar`, `Begin`, `Transition` hold of the text, and reading the
  code wrongly when writing `Model/Scan.lean`, `Machine.lean`, `Lookup.lean`, `CharProps.lean` or `TableData.lean` is excluded.
  `C66_outcome_unique`: the bounds of the interpreter do not matter. `C66_stream`: a Scanner calls the split function only with data that
  fits into its buffer (`Proofs/SplitCongr.lean`, for any reader), so it cannot tell the text from the model.
* **C67** (the source text of the table builder means the model): the texts of gentable/generate.go and property_tree.go are parsed by a
  Lean function, evaluated by the kernel, and executed by a second interpreter (`GoMem/Eval.lean`) with a memory: a list of arrays,
  structs and maps, in which slices are (address, offset, length, capacity). Symbolic execution of every function
  (`Proofs/Mem*.lean`): a relation between the memory and the model's tree (`TreeAt`) is kept by `Set` and `BitwiseOr`; for `Compact`
  a relation between the memory and the model's state (`CRep`) is kept by induction over the depth of the blocks, with a frame
  condition on the arrays the caller is writing to. Whether the
  array of the result is still the one that `Compact` writes the root block to (or `append` has moved it) is part of the relation;
  that it always is follows from C32. Then sequences of calls by induction. C30, C31
  and C32 so hold of the text.
* **C68** (the source text of the parser of the data files means the model): ucdparse/ucd_scan.go is part of the program of C67 (it is
  imported by gentable/generate.go). The interpreter has the functions of package bytes and strconv that it uses, closures and range
  over functions (`iter.Seq`), and Scanners of package bufio: what `Scan` returns is a parameter (`Machine.lines`), `Bytes` returns a
  slice of one array that `Scan` overwrites. `Scans` says that the parameter is what the model of `bufio.Scanner` says, for an arbitrary
  reader; `scans_machineFor`: for every reader there is such a machine. Symbolic execution of `NextEntry` (a relation `ScanAt` between the memory and
  the model's Scanner), `FirstField`, `AllFields` and of its closure; induction over the entries.
* **C69** (the source text of `BuildRawPropertyTree` means the model): the same program as in C67 and C68, which also has
  charprops/properties.go. What `os.Open` returns (`Machine.open_`, applied to what `filepath.Join` returns, `Machine.join`) and what `Scan`
  returns for each file are parameters. `BuildRawPropertyTree` is executed symbolically; for each of its three loops induction over the
  entries, with a relation between the memory and the model's state for the tree (`TreeAt`, of C67) and for each parser (`ScanAt`, of C68), and
  a frame condition: what writes to the tree leaves the parsers alone, and conversely. `slices.Collect` is executed as a call of the
  function `AllFields` returns, with a `yield` that appends. Then C33 and C44 hold of the text.
* **C70** (the source text of the parser of the conformance tests means the model): the same program, whose file
  testdata_scan.go is executed. Invariants for the three nested loops (lines, segments, characters) say which arrays the slices `Input`,
  `WantSegments` and the segments are in: arrays that were made after the line was read, all different, and different from
  the buffer of the Scanner; `append` may write in place or move. The caller of `Spec/TestSource.lean` reads the bytes of the entries only
  after the last call of `NextEntry`, so that an entry that shares memory with a later one, or with the line buffer (which is
  overwritten with arbitrary bytes), would be seen. Together with C36, C45 and C52 this gives what any file, and the committed one, means.
* **C71** (the source text of the command that generates the table means the model): the same program, whose file
  charprops/generate.go is executed. The interpreter has for it `bytes.Buffer`, `fmt.Fprint…`, `format.Source`, `os.Create`, `File.Write`,
  `os.Stderr` and `os.Exit`; what is seen from outside (messages, created files) is kept in the memory in order, and `processEnd` gives the
  status and these effects. `main` is executed symbolically after C69; for its two loops induction over the rows of eight elements
  (`Proofs/MemMain3.lean`), where `i += 8` does not overflow because the tables have fewer than 20000000 elements (`Proofs/GenSize.lean`).
  That building the table has no effects is proved for all code outside package main at once, by induction over the syntax and the depth of
  calls (`Proofs/MemQuiet.lean`). `C71_main` then says that `Gen.main`, which C65 is about, and the text agree, on machines that do what the
  operating system of the model does. Which effects the process survives is a parameter too: so `C71_killed` says what is left behind
  wherever it is killed, and "the command panics" includes that nothing was done before (it panics although it would be killed by any effect).
* **C72** (the source texts of autoversion): `GoLang/Package.lean` reads build constraints (both forms), imports with names, constants and
  functions that only return what a function of another package returns, and go.mod. What the functions of other packages do is a parameter.
  Computation for the texts; case distinction on the release number.

Three properties are marked partial, because as a user would state them they are false of the code: C14, C27, C38. For each
there is a proved counterexample, and a proved theorem that says exactly what is true instead (C47, C46, C51).

## What the work has found out about the code

* **C27/C46.** `Transition` that goes on across a split is wrong: after a consonant or an extended pictographic character followed
  by two regional indicators it splits between the two indicators. `ScanGraphemeClusters` is not affected because it starts
  again with `Begin` for each cluster.
* **C14/C47.** `LookupFirstChar` of the bytes E0 41 returns (0, 0), "more bytes needed", although they can never become valid,
  contrary to its doc comment. The error is reported after at most two more bytes.
* **C38/C51/C52.** `allTokens` (and `TestScanGraphemeClusters_partial`) keep slices of the buffer of the Scanner, which later calls of
  `Scan` may overwrite: from 2050 bytes on early tokens can be wrong. Number, lengths and error are always right. So a correct
  line with a text of more than 2049 bytes in a test file can make the conformance test fail (`C52_false_alarm`). A reader that
  scribbles beyond what it returns and then returns an impossible count can do this damage earlier.
* **C10/C11/C45.** When exactly as many bytes are undecided as the buffer may hold, the result depends on whether the reader
  reports the end together with the last bytes or separately.
* **C31/C32.** The generator computes offsets in uint16: with 1024 or more property blocks it panics (it never writes a wrong
  table). The two maps are passed to `buildCompactedBlocks` in the wrong order, so that equal property blocks are found among the
  index blocks: the committed table has duplicate blocks, but is correct. `Compact` panics if the two halves of ASCII differ and
  the first is all zero or equals some later block (`AsciiClash`).
* **C44.** Data about numbers that are no scalar values is written to U+FFFD. A character listed twice as Extended_Pictographic
  makes the generator panic. An entry whose last number is 7FFFFFFF is silently ignored.
* **C42.** The iterator `Fields.Strings` can be used only once: a second loop sees only the last field.
* **C29.** The properties 0x0F and 0xFF have the same printed form, "Error"; the printed form of "no InCB value" is "0x00".
* **C54.** The table tests look up only characters that the data files list: a table with a wrong property for `A` passes all of
  them (`C54_unlisted_not_tested`). C23 covers the whole code space.
* **C55.** UAX #29 does not quite respect canonical equivalence, and so neither does the code: U+21AE and its decomposition
  U+2194 U+0338 are segmented differently before ZWJ and a pictograph (`C55_exception`).
* **C59.** The split function keeps nothing between calls, so a cluster that arrives in small pieces is scanned again from its
  beginning with every piece: the work is quadratic in the length of the cluster (`C59_slow_reader`), up to the limit that the
  Scanner puts on the length of a token.
* **C64.** `Entry.Fields` is a slice of the buffer of the line Scanner and is overwritten by later calls of `NextEntry` in files of
  2052 bytes or more (`C64_overwritten`); this is not documented, but nothing in /repo keeps an entry for so long.
* **C60.** `LookupFirstChar` reads continuation bytes twice, first to check them, then to use them. If they change in between, the
  mask `& 0b111111` at the second read is what keeps the table accesses within bounds; without it a race would be able to panic.
* **C65.** generate.go ignores the result of `f.Write` (and never closes the file): with a full disk it ends with the status 0 and
  leaves property_table_raw.go empty or cut off (`C65_write_ignored`, `C65_full_disk`).
* **C72.** The constraints of autoversion begin with Go 1.21, but its go.mod admits only releases from 1.25 on. The package for Unicode 15 is
  compiled in with every release, because version_agnostic.go imports it, although doc.go says that the selection by constraints is there
  to avoid linking more than one version (`C72_imports`).
* **C36.** The test data parser accepts signs, and numbers that are no scalar values (which become U+FFFD).

## Seeded bugs

`seeded/mutations.py` has one entry per bug: an edit of a definition of the model as a realistic bug would change the Go code,
the claims it breaks, and a witness: a closed decidable instance of the statement of one of the theorems. `run.py` evaluates the
witness before and after the edit (it must become false: then the theorem's statement is false of the edited program, and no
proof can save it) and rebuilds everything, so that one sees which theorems fail. Entries without a claim are controls: edits
that do not change the behaviour. Theorems that were too weak were tightened; this is noted in `LOG.jsonl`.

The entries `AU…` are edits that a script chose at random (an operator, a constant, two branches exchanged); the build was stopped at the first
error, and no claim was assigned. That the build fails shows only that some proof no longer holds. The eight that still build were looked at:
none of them changes what a property says.
