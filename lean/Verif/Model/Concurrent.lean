import Verif.Model.Scan
/-!
# The split function at the level of single memory accesses, and several calls of it at once

`Model/Scan.lean` models a call of the split function as a function of the bytes of its argument, which is right only as
long as nobody changes these bytes during the call. Here a slice is a region of a shared memory, every index expression
`p[i]` of the Go code is one read of that memory, and other goroutines run between any two reads.

* Every evaluation of `p[i]` is a separate access, in the order in which the Go code evaluates them: property_table.go reads
  `p[0]` once (line 22, into `first`), and each continuation byte up to twice (line 43, then lines 53-62).
* The arrays `lookupProps` and `lookupIndices` are never assigned to, so an access to one of them is not a step.
* A byte is written and read as a whole (the Go memory model, "each read of a single-word-sized or sub-word-sized memory
  location must observe a value actually written to that location"), and a read has one result however often the compiled
  code uses it. The memory of this model is sequentially consistent; the theorems about calls whose data is changed while
  they run hold for any results of the reads, so they do not depend on that.
-/

namespace Textseg

/-- The contents of the memory, one byte for each address. -/
abbrev Memory := Nat → UInt8

/-- A Go `[]byte`: the address of its first byte and its length. (Simplification: the capacity is the length, as in
`Model/Go.lean`.) -/
structure Slice where
  base : Nat
  len : Nat
deriving DecidableEq, Repr

/-- The bytes of a slice. -/
def Slice.bytes (s : Slice) (mem : Memory) : List UInt8 := (List.range s.len).map fun i => mem (s.base + i)

/-- The addresses of a slice. -/
def Slice.Holds (s : Slice) (a : Nat) : Prop := s.base ≤ a ∧ a < s.base + s.len

/-- What a goroutine has left to do: return (or panic), read a byte and go on, or write a byte and go on. -/
inductive Proc (α : Type) where
  | ret (r : Go α)
  | read (a : Nat) (k : UInt8 → Proc α)
  | write (a : Nat) (b : UInt8) (k : Proc α)

/-- One thing after another; a panic ends both. -/
def Proc.bind {α β : Type} : Proc α → (α → Proc β) → Proc β
  | .ret (.ok v), f => f v
  | .ret (.error e), _ => .ret (.error e)
  | .read a k, f => .read a fun b => (k b).bind f
  | .write a b k, f => .write a b (k.bind f)

instance : Monad Proc where
  pure v := .ret (.ok v)
  bind := Proc.bind

/-- Go expression `s[i]`: one read. -/
def Slice.index (s : Slice) (i : Nat) : Proc UInt8 :=
  if i < s.len then .read (s.base + i) fun b => .ret (.ok b) else .ret (.error .indexOutOfRange)

/-- Go expression `s[lo:]`: no access to the memory. -/
def Slice.from (s : Slice) (lo : Nat) : Proc Slice :=
  if lo ≤ s.len then .ret (.ok ⟨s.base + lo, s.len - lo⟩) else .ret (.error .sliceOutOfRange)

/-- Go expression `s[:hi]`: no access to the memory. -/
def Slice.to (s : Slice) (hi : Nat) : Proc Slice :=
  if hi ≤ s.len then .ret (.ok ⟨s.base, hi⟩) else .ret (.error .sliceOutOfRange)

/-- property_table.go:42-46 -/
def continuationLoopT (p : Slice) : (i n : Nat) → Proc Bool
  | _, 0 => .ret (.ok true)
  | i, n + 1 => do
    let b ← p.index i
    if (b &&& 0b11000000) != 0b10000000 then .ret (.ok false)
    else continuationLoopT p (i + 1) n

/-- property_table.go:48-65 -/
def lookupSwitchT (p : Slice) (first : UInt8) (length : Nat) : Proc (CharProperties × Nat) :=
  if length = 1 then do
    let props ← .ret (lookupProps.index first.toNat)
    .ret (.ok (props, length))
  else if length = 2 then do
    let blockIdx ← .ret (lookupIndices.index (first &&& 0b111111).toNat)
    let p1 ← p.index 1
    let props ← .ret (lookupProps.index ((blockIdx.toNat <<< 6) + (p1 &&& 0b111111).toNat))
    .ret (.ok (props, length))
  else if length = 3 then do
    let blockIdx ← .ret (lookupIndices.index (first &&& 0b111111).toNat)
    let p1 ← p.index 1
    let blockIdx ← .ret (lookupIndices.index ((blockIdx.toNat <<< 6) + (p1 &&& 0b111111).toNat))
    let p2 ← p.index 2
    let props ← .ret (lookupProps.index ((blockIdx.toNat <<< 6) + (p2 &&& 0b111111).toNat))
    .ret (.ok (props, length))
  else if length = 4 then do
    let blockIdx ← .ret (lookupIndices.index (first &&& 0b111111).toNat)
    let p1 ← p.index 1
    let blockIdx ← .ret (lookupIndices.index ((blockIdx.toNat <<< 6) + (p1 &&& 0b111111).toNat))
    let p2 ← p.index 2
    let blockIdx ← .ret (lookupIndices.index ((blockIdx.toNat <<< 6) + (p2 &&& 0b111111).toNat))
    let p3 ← p.index 3
    let props ← .ret (lookupProps.index ((blockIdx.toNat <<< 6) + (p3 &&& 0b111111).toNat))
    .ret (.ok (props, length))
  else .ret (.error (.explicit "unreachable"))

/-- property_table.go:17-66 `LookupFirstChar` -/
def LookupFirstCharT (p : Slice) : Proc (CharProperties × Nat) :=
  if p.len == 0 then .ret (.ok (zeroProperties, 0))
  else do
    let first ← p.index 0
    match seqLength first with
    | none => .ret (.ok (ErrorProps, 1))
    | some length =>
      if p.len < length then .ret (.ok (zeroProperties, 0))
      else do
        let good ← continuationLoopT p 1 (length - 1)
        if !good then .ret (.ok (ErrorProps, 1))
        else lookupSwitchT p first length

/-- The result `(int, []byte, error)`, the token being a slice. -/
structure SplitView where
  advance : Nat
  token : Option Slice
  err : Option String
deriving DecidableEq, Repr

/-- The result as a caller sees it who looks at the bytes of the token. -/
def SplitView.contents (v : SplitView) (mem : Memory) : SplitResult :=
  { advance := v.advance, token := v.token.map (·.bytes mem), err := v.err }

/-- grapheme_clusters.go:19, 32, 48, 65: `return 0, nil, nil` -/
def needMoreT : SplitView := { advance := 0, token := none, err := none }

/-- grapheme_clusters.go:24, 30, 43, 55, 63, 73: `return n, data[:n], nil` -/
def emitT (data : Slice) (n : Nat) : Proc SplitView := do
  let tok ← data.to n
  .ret (.ok { advance := n, token := some tok, err := none })

/-- grapheme_clusters.go:38-78, the `for` loop (with a bound on the iterations, as in `Model/Scan.lean`) -/
def scanLoopT (data : Slice) (atEOF : Bool) :
    (fuel : Nat) → (count : Nat) → (remain : Slice) → (state : State) → (prev : CharProperties) → Proc SplitView
  | 0, _, _, _, _ => .ret (.error .outOfFuel)
  | fuel + 1, count, remain, state, prev =>
    if remain.len == 0 then
      if atEOF then emitT data count
      else .ret (.ok needMoreT)
    else do
      let (next, moreCount) ← LookupFirstCharT remain
      if next == ErrorProps then emitT data count
      else if moreCount == 0 then
        if remain.len != 0 && atEOF then emitT data count
        else .ret (.ok needMoreT)
      else do
        let remain ← remain.from moreCount
        let (split, nextState) ← .ret (Transition state prev next)
        if split then emitT data count
        else scanLoopT data atEOF fuel (count + moreCount) remain nextState next

/-- grapheme_clusters.go:17-79 `ScanGraphemeClusters` -/
def ScanGraphemeClustersT (data : Slice) (atEOF : Bool) : Proc SplitView :=
  if data.len == 0 then .ret (.ok needMoreT)
  else do
    let (properties, count) ← LookupFirstCharT data
    if properties == ErrorProps then emitT data 1
    else if count == 0 then
      if data.len > count && atEOF then emitT data 1
      else .ret (.ok needMoreT)
    else do
      let remain ← data.from count
      let state ← .ret (Begin properties)
      scanLoopT data atEOF (data.len + 1) count remain state properties

/-! ## Several goroutines -/

/-- An access to the memory. -/
inductive Access where
  | read (a : Nat) (b : UInt8)
  | write (a : Nat) (b : UInt8)
deriving DecidableEq, Repr

/-- A running program: the memory, and what each of the calls under way has left to do. -/
structure Sys where
  mem : Memory
  calls : List (Proc SplitView)

/-- Who makes a step: one of the calls, or any other part of the program. -/
inductive Who where
  | call (i : Nat)
  | other
deriving DecidableEq, Repr

/-- The memory after `mem[a] = b`. -/
def Memory.set (mem : Memory) (a : Nat) (b : UInt8) : Memory := fun x => if x = a then b else mem x

/-- One step of the program. The rest of the program may write anything anywhere at any time (what it reads does not
matter here); a call makes the access it is about to make. -/
inductive Sys.Step : Sys → Who × Access → Sys → Prop where
  | read (s : Sys) (i a : Nat) (k : UInt8 → Proc SplitView) (h : s.calls[i]? = some (.read a k)) :
      Step s (.call i, .read a (s.mem a)) ⟨s.mem, s.calls.set i (k (s.mem a))⟩
  | write (s : Sys) (i a : Nat) (b : UInt8) (k : Proc SplitView) (h : s.calls[i]? = some (.write a b k)) :
      Step s (.call i, .write a b) ⟨s.mem.set a b, s.calls.set i k⟩
  | other (s : Sys) (a : Nat) (b : UInt8) :
      Step s (.other, .write a b) ⟨s.mem.set a b, s.calls⟩

/-- `Exec s tr s'`: an execution from `s` to `s'` under some schedule, with its accesses in order. -/
inductive Sys.Exec : Sys → List (Who × Access) → Sys → Prop where
  | nil (s : Sys) : Exec s [] s
  | cons (s s' s'' : Sys) (e : Who × Access) (tr : List (Who × Access)) :
      Step s e s' → Exec s' tr s'' → Exec s (e :: tr) s''

/-- The program at the moment the calls `ScanGraphemeClusters(c.1, c.2)` start, each in its own goroutine. -/
def Sys.start (mem : Memory) (cs : List (Slice × Bool)) : Sys :=
  ⟨mem, cs.map fun c => ScanGraphemeClustersT c.1 c.2⟩

end Textseg
