import Verif.GoMem.Quote
import Verif.GoMem.Eval
/-!
# The syntax trees of the generator

That these are the trees that the parser finds in the texts is proved in `Proofs/MemSource.lean`.
-/

namespace Textseg.GoMem

/-- gentable/generate.go: `newTreeInProgress` -/
def fn_newTree : Func := mem_func! 0 7
/-- gentable/generate.go: `Set` -/
def fn_Set : Func := mem_func! 0 8
/-- gentable/generate.go: `BitwiseOr` -/
def fn_BitwiseOr : Func := mem_func! 0 9
/-- gentable/generate.go: `ensureProps` -/
def fn_ensureProps : Func := mem_func! 0 10
/-- gentable/generate.go: `Compact` -/
def fn_Compact : Func := mem_func! 0 11
/-- gentable/generate.go: `buildCompactedBlocks` -/
def fn_build : Func := mem_func! 0 12
/-- gentable/generate.go: `indexBlockKey` -/
def fn_indexBlockKey : Func := mem_func! 0 13
/-- gentable/generate.go: `propertyBlockKey` -/
def fn_propertyBlockKey : Func := mem_func! 0 14

/-- gentable/generate.go: `BuildRawPropertyTree` -/
def fn_BuildRawPropertyTree : Func := mem_func! 0 5

/-- gentable/generate.go -/
def fileGentable : File where
  pkg := name! "gentable"
  imports := [name! "fmt", name! "io", name! "os", name! "path/filepath", name! "slices", name! "unicode/utf8",
    name! "github.com/apparentlymart/go-textseg/v17/textseg/internal/charprops",
    name! "github.com/apparentlymart/go-textseg/v17/textseg/internal/charprops/ucdparse"]
  decls := [mem_decl! 0 0, mem_decl! 0 1, mem_decl! 0 2, mem_decl! 0 3, mem_decl! 0 4, .func fn_BuildRawPropertyTree, mem_decl! 0 6,
    .func fn_newTree, .func fn_Set, .func fn_BitwiseOr, .func fn_ensureProps, .func fn_Compact, .func fn_build,
    .func fn_indexBlockKey, .func fn_propertyBlockKey]

/-- gentable/property_tree.go -/
def filePropertyTree : File where
  pkg := name! "gentable"
  imports := []
  decls := [mem_decl! 1 0]

/-- ucdparse/ucd_scan.go: `NewScanner` -/
def fn_NewScanner : Func := mem_func! 2 1
/-- ucdparse/ucd_scan.go: `NextEntry` -/
def fn_NextEntry : Func := mem_func! 2 2
/-- ucdparse/ucd_scan.go: `FirstField` -/
def fn_FirstField : Func := mem_func! 2 4
/-- ucdparse/ucd_scan.go: `AllFields` -/
def fn_AllFields : Func := mem_func! 2 5
/-- ucdparse/ucd_scan.go: `Strings` -/
def fn_Strings : Func := mem_func! 2 7
/-- ucdparse/ucd_scan.go: `FirstString` -/
def fn_FirstString : Func := mem_func! 2 8

/-- ucdparse/ucd_scan.go -/
def fileUcdScan : File where
  pkg := name! "ucdparse"
  imports := [name! "bufio", name! "bytes", name! "fmt", name! "io", name! "iter", name! "strconv"]
  decls := [mem_decl! 2 0, .func fn_NewScanner, .func fn_NextEntry, mem_decl! 2 3, .func fn_FirstField, .func fn_AllFields,
    mem_decl! 2 6, .func fn_Strings, .func fn_FirstString, mem_decl! 2 9, mem_decl! 2 10, mem_decl! 2 11]

/-- ucdparse/testdata_scan.go: `NewTestDataScanner` -/
def fn_NewTestDataScanner : Func := mem_func! 3 1
/-- ucdparse/testdata_scan.go: `NextEntry` -/
def fn_NextTestEntry : Func := mem_func! 3 2

/-- ucdparse/testdata_scan.go -/
def fileTestdataScan : File where
  pkg := name! "ucdparse"
  imports := [name! "bufio", name! "bytes", name! "fmt", name! "io", name! "strconv", name! "unicode/utf8"]
  decls := [mem_decl! 3 0, .func fn_NewTestDataScanner, .func fn_NextTestEntry, mem_decl! 3 3, mem_decl! 3 4, mem_decl! 3 5]

/-- charprops/properties.go: `LookupGCBProperty` -/
def fn_LookupGCB : Func := mem_func! 4 23
/-- charprops/properties.go: `LookupEmojiProperty` -/
def fn_LookupEmoji : Func := mem_func! 4 24
/-- charprops/properties.go: `LookupInCBProperty` -/
def fn_LookupInCB : Func := mem_func! 4 33

/-- charprops/properties.go -/
def fileProperties : File where
  pkg := name! "charprops"
  imports := [name! "fmt"]
  decls := [mem_decl! 4 0, mem_decl! 4 1, mem_decl! 4 2, mem_decl! 4 3, mem_decl! 4 4, mem_decl! 4 5, mem_decl! 4 6, mem_decl! 4 7,
    mem_decl! 4 8, mem_decl! 4 9, mem_decl! 4 10, mem_decl! 4 11, mem_decl! 4 12, mem_decl! 4 13, mem_decl! 4 14, mem_decl! 4 15,
    mem_decl! 4 16, mem_decl! 4 17, mem_decl! 4 18, mem_decl! 4 19, mem_decl! 4 20, mem_decl! 4 21, mem_decl! 4 22,
    .func fn_LookupGCB, .func fn_LookupEmoji, mem_decl! 4 25, mem_decl! 4 26, mem_decl! 4 27, mem_decl! 4 28, mem_decl! 4 29,
    mem_decl! 4 30, mem_decl! 4 31, mem_decl! 4 32, .func fn_LookupInCB, mem_decl! 4 34]

/-- charprops/generate.go: `main` -/
def fn_main : Func := mem_func! 5 0

/-- charprops/generate.go -/
def fileGenerate : File where
  pkg := name! "main"
  imports := [name! "bytes", name! "fmt", name! "go/format", name! "math", name! "os",
    name! "github.com/apparentlymart/go-textseg/v17/textseg/internal/charprops/gentable"]
  decls := [.func fn_main]

/-- The command, the package gentable, and what they use of other packages. -/
def gentable : Program := [fileGentable, filePropertyTree, fileUcdScan, fileTestdataScan, fileProperties, fileGenerate]

end Textseg.GoMem
