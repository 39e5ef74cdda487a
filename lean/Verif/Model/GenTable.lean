import Verif.Model.UCDParse
import Verif.Model.CharProps
/-!
# Model of textseg/internal/charprops/gentable and of the table output in textseg/internal/charprops/generate.go
-/

namespace Textseg.Gen
open Textseg

/-- gentable/generate.go:96-99 `treeInProgress` -/
structure Tree where
  rawProps : List UInt8
  indices : List UInt16

/-- gentable/generate.go:101-113 `newTreeInProgress` (blockSize is 64, blockShift is 6) -/
def newTree : Tree := { rawProps := List.replicate 128 0, indices := List.replicate 64 0 }

/-- Go statement `p[i] = v` on a slice. -/
def goSet {α : Type} (p : List α) (i : Nat) (v : α) : Go (List α) :=
  if i < p.length then .ok (p.set i v) else .error .indexOutOfRange

/-- gentable/generate.go:148-158, the body of the loop: from the index block `cur` to the one that `b` selects, which is
allocated if there is none yet. -/
def indexStep (t : Tree) (cur : Nat) (b : UInt8) : Go (Tree × Nat) := do
  let at_ := (cur <<< 6) + (b &&& 63).toNat
  let v ← goIndex t.indices at_
  if v = 0 then
    let new := t.indices.length >>> 6
    let indices ← goSet (t.indices ++ List.replicate 64 0) at_ (UInt16.ofNat new)
    .ok ({ t with indices := indices }, new)
  else .ok (t, v.toNat)

/-- gentable/generate.go:148-158, the loop. -/
def indexLoop (t : Tree) (cur : Nat) : List UInt8 → Go (Tree × Nat)
  | [] => .ok (t, cur)
  | b :: rest => do
    let (t, cur) ← indexStep t cur b
    indexLoop t cur rest

/-- gentable/generate.go:159-169: from the index block `cur` to the property block that `b` selects, which is allocated if
there is none yet. -/
def propStep (t : Tree) (cur : Nat) (b : UInt8) : Go (Tree × Nat) := do
  let at_ := (cur <<< 6) + (b &&& 63).toNat
  let v ← goIndex t.indices at_
  if v = 0 then
    let new := t.rawProps.length >>> 6
    let indices ← goSet t.indices at_ (UInt16.ofNat new)
    .ok ({ rawProps := t.rawProps ++ List.replicate 64 0, indices := indices }, new)
  else .ok (t, v.toNat)

/-- gentable/generate.go:128-171 `ensureProps`: the position in `rawProps` that the returned pointer refers to. -/
def ensureProps (t : Tree) (r : Rune) : Go (Tree × Nat) := do
  let asU8 := EncodeRune r
  if asU8.length = 1 then
    let b ← goIndex asU8 0
    .ok (t, b.toNat)
  else
    let nested ← goSliceTo asU8 (asU8.length - 2)
    let penultimate ← goIndex asU8 (asU8.length - 2)
    let final ← goIndex asU8 (asU8.length - 1)
    let (t, cur) ← indexLoop t 0 nested
    let (t, propBlockIndex) ← propStep t cur penultimate
    .ok (t, (propBlockIndex <<< 6) + (final &&& 63).toNat)

/-- gentable/generate.go:115-121 `Set` -/
def Tree.Set (t : Tree) (r : Rune) (v : UInt8) : Go Tree := do
  let (t, i) ← ensureProps t r
  let old ← goIndex t.rawProps i
  if v = 4 ∧ old ≠ 0 then .error (.explicit "conflicting properties")
  else
    let rawProps ← goSet t.rawProps i v
    .ok { t with rawProps := rawProps }

/-- gentable/generate.go:123-126 `BitwiseOr` -/
def Tree.BitwiseOr (t : Tree) (r : Rune) (propMask : UInt8) : Go Tree := do
  let (t, i) ← ensureProps t r
  let old ← goIndex t.rawProps i
  let rawProps ← goSet t.rawProps i (old ||| propMask)
  .ok { t with rawProps := rawProps }

/-! ## Compaction -/

/-- A Go map from strings to uint16. -/
abbrev BlockMap := List (List UInt8 × UInt16)

/-- `m[key]` with the second result -/
def BlockMap.get (m : BlockMap) (key : List UInt8) : Option UInt16 := m.lookup key

/-- `m[key] = v` -/
def BlockMap.put (m : BlockMap) (key : List UInt8) (v : UInt16) : BlockMap := (key, v) :: m

/-- gentable/generate.go:311-316 `propertyBlockKey` -/
def propertyBlockKey (block : List UInt8) : Go (List UInt8) :=
  if block.length ≠ 64 then .error (.explicit "incorrect property block size") else .ok block

/-- gentable/generate.go:299-309 `indexBlockKey` -/
def indexBlockKey (block : List UInt16) : Go (List UInt8) :=
  if block.length ≠ 64 then .error (.explicit "incorrect index block size")
  else .ok (block.flatMap fun (v : UInt16) => [v.toUInt8, (v >>> 8).toUInt8])

/-- The state of `Compact`: `ret.Properties`, `ret.Indices`, and the maps that `Compact` calls `propBlockIdxs` and
`indexBlockIdxs`. `root` is what `dstRootIndices` refers to; `shared` says whether that is still the first block of the
array of `ret.Indices`, which is so until `append` exceeds the capacity `cap`. -/
structure CState where
  props : List UInt8
  indices : List UInt16
  propMap : BlockMap
  indexMap : BlockMap
  root : List UInt16
  shared : Bool
  cap : Nat

/-- `append(ret.Indices, block...)` -/
def CState.appendIndices (st : CState) (block : List UInt16) : CState :=
  { st with indices := st.indices ++ block, shared := st.shared && decide (st.indices.length + block.length ≤ st.cap) }

/-- `dstRootIndices[i] = v` -/
def CState.setRoot (st : CState) (i : Nat) (v : UInt16) : Go CState := do
  let root ← goSet st.root i v
  .ok { st with root := root, indices := if st.shared then st.indices.set i v else st.indices }

/-- Which of the two maps of `Compact` a parameter of `buildCompactedBlocks` refers to. -/
inductive Which where
  | propMap
  | indexMap
deriving DecidableEq

def CState.getMap (st : CState) : Which → BlockMap
  | .propMap => st.propMap
  | .indexMap => st.indexMap

def CState.putMap (st : CState) (w : Which) (key : List UInt8) (v : UInt16) : CState :=
  match w with
  | .propMap => { st with propMap := st.propMap.put key v }
  | .indexMap => { st with indexMap := st.indexMap.put key v }

/-- Go slice expression `p[lo:hi]` -/
def goSlice {α : Type} (p : List α) (lo hi : Nat) : Go (List α) :=
  if lo ≤ hi ∧ hi ≤ p.length then .ok ((p.take hi).drop lo) else .error .sliceOutOfRange

/-- The block that `srcBlockIdx` refers to, gentable/generate.go:241-251 and 275-285. The arithmetic is that of uint16. -/
def srcBlock {α : Type} (zero : α) (blocks : List α) (srcBlockIdx : UInt16) : Go (List α) :=
  if srcBlockIdx = 0 then .ok (List.replicate 64 zero)
  else
    let srcBlockStart : UInt16 := srcBlockIdx <<< 6
    goSlice blocks srcBlockStart.toNat (srcBlockStart + 64).toNat

/-- The loop `for i := range src { … dst[i] = … }` -/
def fillBlock (f : CState → UInt16 → Go (CState × UInt16)) : CState → List UInt16 → Go (CState × List UInt16)
  | st, [] => .ok (st, [])
  | st, src :: rest => do
    let (st, v) ← f st src
    let (st, vs) ← fillBlock f st rest
    .ok (st, v :: vs)

/-- gentable/generate.go:273-296, a property block; the result is what is stored in `dstIndices[currentIdx]`. -/
def buildLeaf (t : Tree) (propW : Which) (st : CState) (srcBlockIdx : UInt16) : Go (CState × UInt16) := do
  let block ← srcBlock 0 t.rawProps srcBlockIdx
  let key ← propertyBlockKey block
  match (st.getMap propW).get key with
  | some i => .ok (st, i)
  | none =>
    let i := UInt16.ofNat (st.props.length >>> 6)
    .ok (({ st with props := st.props ++ block }).putMap propW key i, i)

/-- gentable/generate.go:235-297 `buildCompactedBlocks`. `srcBlockIdx` is `srcIndices[currentIdx]` (line 236), the result is
what is stored in `dstIndices[currentIdx]` (lines 269 and 296), which is the last thing that happens in either case.
`propW` and `indexW` are the maps passed as the parameters `propBlockIdxs` and `indexBlockIdxs`; note that the
recursive call at line 258 passes them the other way round. -/
def build (t : Tree) : (indexLevels : Nat) → (propW indexW : Which) → CState → UInt16 → Go (CState × UInt16)
  | 0, propW, _, st, srcBlockIdx => buildLeaf t propW st srcBlockIdx
  | n + 1, propW, indexW, st, srcBlockIdx => do
    let block ← srcBlock 0 t.indices srcBlockIdx
    let (st, newBlock) ← fillBlock (build t n indexW propW) st block
    let key ← indexBlockKey newBlock
    match (st.getMap indexW).get key with
    | some i => .ok (st, i)
    | none =>
      let i := UInt16.ofNat (st.indices.length >>> 6)
      .ok ((st.appendIndices newBlock).putMap indexW key i, i)

/-- gentable/generate.go:210-219 -/
def rootLevels (i : Nat) : Go Nat :=
  if i >>> 4 = 0 ∨ i >>> 4 = 1 then .ok 0
  else if i >>> 4 = 2 then .ok 1
  else if i >>> 4 = 3 then .ok 2
  else .error (.explicit "invalid initial index")

/-- gentable/generate.go:205-221, the loop over the root block. Line 220 passes `indexBlockIdxs` and `propBlockIdxs` as the
parameters named `propBlockIdxs` and `indexBlockIdxs`. -/
def rootLoop (t : Tree) : (i : Nat) → (src : List UInt16) → CState → Go CState
  | _, [], st => .ok st
  | i, srcBlockIdx :: rest, st => do
    let levels ← rootLevels i
    let (st, v) ← build t levels .indexMap .propMap st srcBlockIdx
    let st ← st.setRoot i v
    rootLoop t (i + 1) rest st

/-- gentable/property_tree.go:3-6 `RawPropertyTree` -/
structure RawPropertyTree where
  Indices : List UInt16
  Properties : List UInt8
deriving DecidableEq

/-- gentable/generate.go:173-233 `Compact` -/
def Tree.Compact (t : Tree) : Go RawPropertyTree := do
  let b0 ← goSliceTo t.rawProps 64
  let key0 ← propertyBlockKey b0
  let b1 ← goSlice t.rawProps 64 128
  let key1 ← propertyBlockKey b1
  let ascii ← goSliceTo t.rawProps 128
  let src ← goSliceTo t.indices 64
  let st : CState := { props := ascii, indices := List.replicate 64 0, propMap := (BlockMap.put [] key0 0).put key1 1,
                       indexMap := [], root := List.replicate 64 0, shared := true, cap := t.indices.length * 4 }
  let st ← rootLoop t 0 src st
  if (0 : UInt16) ∈ st.indices then .error (.explicit "index entry is zero, which is invalid")
  else .ok { Indices := st.indices, Properties := st.props }

/-! ## Building the tree from the data files -/

/-- The loop `for r := entry.Start; r < entry.End; r++ { op(r) }`, gentable/generate.go:54-56, 70-72 and 87-89, with `n` the
number of iterations. -/
def forRange (op : Tree → Rune → Go Tree) : (n : Nat) → (r : Rune) → Tree → Go Tree
  | 0, _, t => .ok t
  | n + 1, r, t => do
    let t ← op t r
    forRange op n (r + 1) t

/-- The number of iterations of that loop: `entry.End - entry.Start`, or none if that is negative. -/
def rangeCount (e : Entry) : Nat := (e.End.toInt - e.Start.toInt).toNat

/-- gentable/generate.go:52-56 -/
def gbpEntry (t : Tree) (e : Entry) : Go Tree :=
  let prop := LookupGCBProperty (firstString e.Fields)
  forRange (fun t r => t.Set r prop) (rangeCount e) e.Start t

/-- gentable/generate.go:65-72 -/
def emojiEntry (t : Tree) (e : Entry) : Go Tree :=
  let prop := LookupEmojiProperty (firstString e.Fields)
  if prop = 0 then .ok t
  else forRange (fun t r => t.Set r prop) (rangeCount e) e.Start t

/-- gentable/generate.go:81-89 -/
def dcpEntry (t : Tree) (e : Entry) : Go Tree := do
  let fields ← allFields e.Fields
  match fields with
  | f0 :: f1 :: _ =>
    if f0 ≠ str "InCB" then .ok t
    else
      let prop := LookupInCBProperty f1
      forRange (fun t r => t.BitwiseOr r prop) (rangeCount e) e.Start t
  | _ => .ok t

/-- gentable/generate.go:45-57, 58-73 and 74-90: reading one file. The result is the tree or the error that is returned. -/
def readFile {σ : Type} (read : Reader σ) (op : Tree → Entry → Go Tree) : (fuel : Nat) → Scanner σ → Tree →
    Go (Except ParseErr Tree)
  | 0, _, _ => .error .outOfFuel
  | fuel + 1, s, t => do
    match ← NextEntry read (fuel + 1) s with
    | (.error e, _) => if e = .io .eof then .ok (.ok t) else .ok (.error e)
    | (.ok entry, s) => do
      let t ← op t entry
      readFile read op fuel s t

/-- gentable/generate.go:41-93, `BuildRawPropertyTree` after the files have been opened. `rd1`, `rd2` and `rd3` are the
files GraphemeBreakProperty.txt, emoji-data.txt and DerivedCoreProperties.txt. -/
def BuildRawPropertyTree {σ : Type} (read : Reader σ) (fuel : Nat) (rd1 rd2 rd3 : σ) : Go (Except ParseErr RawPropertyTree) := do
  match ← readFile read gbpEntry fuel (newScanner rd1 0) newTree with
  | .error e => .ok (.error e)
  | .ok t =>
    match ← readFile read emojiEntry fuel (newScanner rd2 0) t with
    | .error e => .ok (.error e)
    | .ok t =>
      match ← readFile read dcpEntry fuel (newScanner rd3 0) t with
      | .error e => .ok (.error e)
      | .ok t => do
        let raw ← t.Compact
        .ok (.ok raw)

/-- charprops/generate.go:33-49, the elements of the array literal `lookupIndices` that `main` prints. (The text that
is printed is modelled in GenPrint.lean.) -/
def outputIndices (raw : RawPropertyTree) : Go (List UInt8) :=
  if raw.Indices.all (fun v => v ≤ 255) then .ok (raw.Indices.map UInt16.toUInt8)
  else .error (.explicit "too many indices to use uint8")

/-- charprops/generate.go:51-64, the elements of the array literal `lookupProps`. -/
def outputProps (raw : RawPropertyTree) : List UInt8 := raw.Properties

end Textseg.Gen
