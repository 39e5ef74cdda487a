import Verif.GoLang.Quote
import Verif.GoLang.Eval
import Verif.Model.TableData
/-!
# The syntax trees of the library

That these are the trees that the parser finds in the texts is proved in `Proofs/Source.lean`.
-/

namespace Textseg.GoLang
open Textseg


/-- textseg/grapheme_clusters.go: `ScanGraphemeClusters` -/
def fn_ScanGraphemeClusters : Func := go_func! 0 0

/-- textseg/grapheme_clusters.go -/
def fileGraphemeClusters : File where
  pkg := name! "textseg"
  imports := [name! "github.com/apparentlymart/go-textseg/v17/textseg/internal/charprops", name! "github.com/apparentlymart/go-textseg/v17/textseg/internal/machine"]
  decls := [.func fn_ScanGraphemeClusters]

/-- textseg/internal/machine/state.go: `Begin` -/
def fn_Begin : Func := go_func! 1 7

/-- textseg/internal/machine/state.go: `Transition` -/
def fn_Transition : Func := go_func! 1 8

/-- textseg/internal/machine/state.go: `nextState` -/
def fn_nextState : Func := go_func! 1 9

/-- textseg/internal/machine/state.go: `gb9cActive` -/
def fn_gb9cActive : Func := go_func! 1 10

/-- textseg/internal/machine/state.go: `gb11Active` -/
def fn_gb11Active : Func := go_func! 1 11

/-- textseg/internal/machine/state.go: `gb13Active` -/
def fn_gb13Active : Func := go_func! 1 12

/-- textseg/internal/machine/state.go -/
def fileState : File where
  pkg := name! "machine"
  imports := [name! "github.com/apparentlymart/go-textseg/v17/textseg/internal/charprops"]
  decls := [go_decl! 1 0, go_decl! 1 1, go_decl! 1 2, go_decl! 1 3, go_decl! 1 4, go_decl! 1 5, go_decl! 1 6, .func fn_Begin, .func fn_Transition, .func fn_nextState, .func fn_gb9cActive, .func fn_gb11Active, .func fn_gb13Active]

/-- textseg/internal/charprops/property_table.go: `LookupFirstChar` -/
def fn_LookupFirstChar : Func := go_func! 2 1

/-- textseg/internal/charprops/property_table.go -/
def filePropertyTable : File where
  pkg := name! "charprops"
  imports := []
  decls := [go_decl! 2 0, .func fn_LookupFirstChar]

/-- textseg/internal/charprops/properties.go: `MakeCharProperties` -/
def fn_MakeCharProperties : Func := go_func! 3 2

/-- textseg/internal/charprops/properties.go: `CharProperties.GCBProperty` -/
def fn_CharProperties_GCBProperty : Func := go_func! 3 3

/-- textseg/internal/charprops/properties.go: `CharProperties.InCBProperty` -/
def fn_CharProperties_InCBProperty : Func := go_func! 3 4

/-- textseg/internal/charprops/properties.go: `CharProperties.String` -/
def fn_CharProperties_String : Func := go_func! 3 5

/-- textseg/internal/charprops/properties.go: `LookupGCBProperty` -/
def fn_LookupGCBProperty : Func := go_func! 3 23

/-- textseg/internal/charprops/properties.go: `LookupEmojiProperty` -/
def fn_LookupEmojiProperty : Func := go_func! 3 24

/-- textseg/internal/charprops/properties.go: `GCBProperty.IsAnyControl` -/
def fn_GCBProperty_IsAnyControl : Func := go_func! 3 25

/-- textseg/internal/charprops/properties.go: `GCBProperty.String` -/
def fn_GCBProperty_String : Func := go_func! 3 26

/-- textseg/internal/charprops/properties.go: `LookupInCBProperty` -/
def fn_LookupInCBProperty : Func := go_func! 3 33

/-- textseg/internal/charprops/properties.go: `InCBProperty.String` -/
def fn_InCBProperty_String : Func := go_func! 3 34

/-- textseg/internal/charprops/properties.go -/
def fileProperties : File where
  pkg := name! "charprops"
  imports := [name! "fmt"]
  decls := [go_decl! 3 0, go_decl! 3 1, .func fn_MakeCharProperties, .func fn_CharProperties_GCBProperty, .func fn_CharProperties_InCBProperty, .func fn_CharProperties_String, go_decl! 3 6, go_decl! 3 7, go_decl! 3 8, go_decl! 3 9, go_decl! 3 10, go_decl! 3 11, go_decl! 3 12, go_decl! 3 13, go_decl! 3 14, go_decl! 3 15, go_decl! 3 16, go_decl! 3 17, go_decl! 3 18, go_decl! 3 19, go_decl! 3 20, go_decl! 3 21, go_decl! 3 22, .func fn_LookupGCBProperty, .func fn_LookupEmojiProperty, .func fn_GCBProperty_IsAnyControl, .func fn_GCBProperty_String, go_decl! 3 27, go_decl! 3 28, go_decl! 3 29, go_decl! 3 30, go_decl! 3 31, go_decl! 3 32, .func fn_LookupInCBProperty, .func fn_InCBProperty_String]

/-- The elements of a composite literal. -/
def literals : List UInt8 → Exprs
  | [] => .nil
  | x :: xs => .cons (.num x.toNat) (literals xs)

/-- The bytes of a table. -/
def tableList (t : PackedTable) : List UInt8 := t.blocks.flatMap fun b => (List.range 64).map (blockByte b)

/-- textseg/internal/charprops/property_table_raw.go -/
def fileTables : File where
  pkg := name! "charprops"
  imports := []
  decls := [.var (name! "lookupIndices") (.comp (.array (.name (name! "uint8"))) (literals (tableList lookupIndices))),
    .var (name! "lookupProps") (.comp (.array (.name (name! "CharProperties"))) (literals (tableList lookupProps)))]

/-- The library. -/
def library : Program := [fileGraphemeClusters, fileState, filePropertyTable, fileProperties, fileTables]

end Textseg.GoLang
