import Verif.Model.CharProps
import Verif.Model.TableData
/-!
# Model of textseg/internal/charprops/property_table.go
-/

namespace Textseg

/-- property_table.go:5 `var zeroProperties CharProperties` -/
def zeroProperties : CharProperties := 0

/-- property_table.go:22-34, the `if`/`else if` chain on the first byte: the length of the sequence, or `none` for the
`else` branch ("Invalid initial byte"). -/
def seqLength (first : UInt8) : Option Nat :=
  if first < 128 then some 1
  else if (first &&& 0b11100000) == 0b11000000 then some 2
  else if (first &&& 0b11110000) == 0b11100000 then some 3
  else if (first &&& 0b11111000) == 0b11110000 then some 4
  else none

/-- property_table.go:42-46, the loop `for i := 1; i < length; i++`, with `n = length - i` iterations left: whether it
reaches its end without meeting a byte that is not a continuation byte. -/
def continuationLoop (p : List UInt8) : (i n : Nat) → Go Bool
  | _, 0 => .ok true
  | i, n + 1 => do
    let b ← goIndex p i
    if (b &&& 0b11000000) != 0b10000000 then .ok false
    else continuationLoop p (i + 1) n

/-- property_table.go:48-65, the `switch length`, for any contents of the two tables (`lookupIndices[i]` is `indexAt i`, `lookupProps[i]` is
`propAt i`) -/
def lookupSwitchIn (indexAt propAt : Nat → Go UInt8) (p : List UInt8) (first : UInt8) (length : Nat) : Go (CharProperties × Nat) :=
  if length = 1 then do
    let props ← propAt first.toNat
    .ok (props, length)
  else if length = 2 then do
    let blockIdx ← indexAt (first &&& 0b111111).toNat
    let p1 ← goIndex p 1
    let props ← propAt ((blockIdx.toNat <<< 6) + (p1 &&& 0b111111).toNat)
    .ok (props, length)
  else if length = 3 then do
    let blockIdx ← indexAt (first &&& 0b111111).toNat
    let p1 ← goIndex p 1
    let blockIdx ← indexAt ((blockIdx.toNat <<< 6) + (p1 &&& 0b111111).toNat)
    let p2 ← goIndex p 2
    let props ← propAt ((blockIdx.toNat <<< 6) + (p2 &&& 0b111111).toNat)
    .ok (props, length)
  else if length = 4 then do
    let blockIdx ← indexAt (first &&& 0b111111).toNat
    let p1 ← goIndex p 1
    let blockIdx ← indexAt ((blockIdx.toNat <<< 6) + (p1 &&& 0b111111).toNat)
    let p2 ← goIndex p 2
    let blockIdx ← indexAt ((blockIdx.toNat <<< 6) + (p2 &&& 0b111111).toNat)
    let p3 ← goIndex p 3
    let props ← propAt ((blockIdx.toNat <<< 6) + (p3 &&& 0b111111).toNat)
    .ok (props, length)
  else .error (.explicit "unreachable")

/-- property_table.go:17-66 `LookupFirstChar`, for any contents of the two tables -/
def LookupFirstCharIn (indexAt propAt : Nat → Go UInt8) (p : List UInt8) : Go (CharProperties × Nat) :=
  match p with
  | [] => .ok (zeroProperties, 0)
  | first :: _ =>
    match seqLength first with
    | none => .ok (ErrorProps, 1)
    | some length =>
      if p.length < length then .ok (zeroProperties, 0)
      else do
        let good ← continuationLoop p 1 (length - 1)
        if !good then .ok (ErrorProps, 1)
        else lookupSwitchIn indexAt propAt p first length

/-- property_table.go:48-65, with the tables of property_table_raw.go -/
def lookupSwitch (p : List UInt8) (first : UInt8) (length : Nat) : Go (CharProperties × Nat) :=
  lookupSwitchIn lookupIndices.index lookupProps.index p first length

/-- property_table.go:17-66 `LookupFirstChar`, with the tables of property_table_raw.go -/
def LookupFirstChar (p : List UInt8) : Go (CharProperties × Nat) :=
  LookupFirstCharIn lookupIndices.index lookupProps.index p

end Textseg
