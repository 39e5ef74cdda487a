import Verif.Model.GenTable
/-!
# Model of textseg/internal/charprops/generate.go: the Go source that `main` prints

`main` writes the source to a buffer, passes it through `format.Source` and writes the result to property_table_raw.go.
Modelled is the text in the buffer. Not modelled: `format.Source` (go/format), which only changes white space, and the file
system.
-/

namespace Textseg.Gen
open Textseg

/-- `%04x` of a natural number: lower-case hexadecimal, at least four digits. -/
def sprintf04x (n : Nat) : GoString :=
  let ds := (Nat.toDigits 16 n).map fun c => UInt8.ofNat c.toNat
  List.replicate (4 - ds.length) 0x30 ++ ds

/-- charprops/generate.go:40-45, what is printed for an element of `tree.Indices` -/
def printIndex (v : UInt16) : Go GoString :=
  if 255 < v then .error (.explicit "too many indices to use uint8")
  else .ok (sprintf0x02x v.toUInt8 ++ str ",")

/-- charprops/generate.go:59-61, what is printed for an element of `tree.Properties` -/
def printProp (v : UInt8) : Go GoString := .ok (sprintf0x02x v ++ str ",")

/-- charprops/generate.go:33-48 and 52-64, the loop over rows of eight elements. `fuel` bounds the number of rows. -/
def printRows {α : Type} (item : α → Go GoString) (elems : List α) : (fuel i : Nat) → Go GoString
  | 0, _ => .error .outOfFuel
  | fuel + 1, i =>
    if i < elems.length then do
      let comment := if i % 64 = 0 then str "  // block 0x" ++ sprintf04x (i >>> 6) ++ str "\n" else []
      let items ← goSliceFrom elems i
      let items ← goSliceTo items (min items.length 8)
      let row ← items.mapM item
      let rest ← printRows item elems fuel (i + 8)
      .ok (comment ++ str "\t" ++ row.flatten ++ str "\n" ++ rest)
    else .ok []

/-- charprops/generate.go:22-65, the contents of `buf` -/
def printSource (tree : RawPropertyTree) : Go GoString := do
  let indices ← printRows printIndex tree.Indices (tree.Indices.length + 1) 0
  let props ← printRows printProp tree.Properties (tree.Properties.length + 1) 0
  .ok (str "// Generated by generate.go. DO NOT EDIT!\n" ++ str "\n" ++ str "package charprops\n" ++ str "\n" ++
    str "var lookupIndices = [...]uint8{\n" ++ indices ++ str "}\n" ++
    str "var lookupProps = [...]CharProperties{\n" ++ props ++ str "}\n")

/-- charprops/generate.go:15-65, the text that is passed to `format.Source`, or the error with which `main` exits before. -/
def generateMain {σ : Type} (read : Reader σ) (fuel : Nat) (rd1 rd2 rd3 : σ) : Go (Except ParseErr GoString) := do
  match ← BuildRawPropertyTree read fuel rd1 rd2 rd3 with
  | .error e => .ok (.error e)
  | .ok tree => do
    let src ← printSource tree
    .ok (.ok src)

end Textseg.Gen
