/-!
# Go runtime conventions used by the model

Nothing here models a particular file of /repo; it fixes how Go values and panics are represented.

* `[]byte` is `List UInt8`; a Go panic is an `Except` error.
* Every index expression `p[i]` of the Go code is `goIndex`, every slice expression `p[lo:]` / `p[:hi]` is
  `goSliceFrom` / `goSliceTo`, all bounds-checked.
  (Simplification: Go allows `p[:hi]` up to the *capacity*; the model panics beyond the *length*, which is stricter.)
-/

namespace Textseg

/-- The ways a modelled Go function can fail to return normally. -/
inductive GoPanic where
  /-- index out of range -/
  | indexOutOfRange
  /-- slice bounds out of range -/
  | sliceOutOfRange
  /-- an explicit call of `panic(msg)` -/
  | explicit (msg : String)
  /-- not a Go panic: the model's bound on loop iterations was reached (proved never to happen) -/
  | outOfFuel
deriving DecidableEq, Repr

/-- A computation that may panic. -/
abbrev Go := Except GoPanic

deriving instance DecidableEq for Except

/-- A Go `string`: a sequence of bytes. -/
abbrev GoString := List UInt8

/-- A Go string literal (UTF-8). -/
def str (s : String) : GoString := s.toUTF8.data.toList

/-- Go expression `p[i]` on a slice. -/
def goIndex {α : Type} (p : List α) (i : Nat) : Go α :=
  match p[i]? with
  | some x => .ok x
  | none => .error .indexOutOfRange

/-- Go expression `p[lo:]` on a slice. -/
def goSliceFrom {α : Type} (p : List α) (lo : Nat) : Go (List α) :=
  if lo ≤ p.length then .ok (p.drop lo) else .error .sliceOutOfRange

/-- Go expression `p[:hi]` on a slice. -/
def goSliceTo {α : Type} (p : List α) (hi : Nat) : Go (List α) :=
  if hi ≤ p.length then .ok (p.take hi) else .error .sliceOutOfRange

/-- A Go array literal of bytes (`[...]uint8{...}`), stored as blocks of 64 bytes. Each block is one
number whose hexadecimal digits are the bytes of the block in the order of the Go source. -/
structure PackedTable where
  blocks : List Nat

/-- Byte `j` (`0 ≤ j < 64`) of a block. -/
def blockByte (b : Nat) (j : Nat) : UInt8 := UInt8.ofNat ((b >>> (8 * (63 - j))) % 256)

/-- Go expression `t[i]` on the array, bounds-checked. -/
def PackedTable.index (t : PackedTable) (i : Nat) : Go UInt8 :=
  match t.blocks[i / 64]? with
  | some b => .ok (blockByte b (i % 64))
  | none => .error .indexOutOfRange

end Textseg
