import Verif.Spec.UCD
import Verif.Spec.Names
/-!
# Specification: what a sequence of operations records

The operations are those of the table generator: `Set` replaces the property of a character, `BitwiseOr` adds bits to it.
A rune is a Go rune, that is, any 32-bit integer; one that is not a Unicode scalar value stands for U+FFFD.
-/

namespace Textseg.Spec

inductive TableOp where
  | set (r : Int32) (v : UInt8)
  | bitwiseOr (r : Int32) (mask : UInt8)

def TableOp.rune : TableOp → Int32
  | .set r _ => r
  | .bitwiseOr r _ => r

/-- The code point that a rune stands for. -/
def codePoint (r : Int32) : Nat :=
  if 0 ≤ r.toInt ∧ r.toInt.toNat.isValidChar then r.toInt.toNat else 0xFFFD

/-- The effect of an operation on the property of the character it is addressed to. -/
def TableOp.effect (old : UInt8) : TableOp → UInt8
  | .set _ v => v
  | .bitwiseOr _ mask => old ||| mask

/-- The property of a code point after operations, which is the result of those addressed to it in order. -/
def recorded (ops : List TableOp) (c : Nat) : UInt8 :=
  (ops.filter fun o => codePoint o.rune == c).foldl TableOp.effect 0

/-- Some operation sets the property 4 (Extended_Pictographic) of a character that already has another property. -/
def Conflict (ops : List TableOp) : Prop :=
  ∃ before r after, ops = before ++ .set r 4 :: after ∧ recorded before (codePoint r) ≠ 0

/-- Outside ASCII, the operations are addressed to characters in at most `n` blocks of 64. -/
def AtMostBlocks (ops : List TableOp) (n : Nat) : Prop :=
  ∃ blocks : List Nat, blocks.length ≤ n ∧ ∀ o ∈ ops, 128 ≤ codePoint o.rune → codePoint o.rune / 64 ∈ blocks

/-- The blocks of 64 characters from `64 * a` and from `64 * b` on have the same properties. -/
def SameBlock (ops : List TableOp) (a b : Nat) : Prop :=
  ∀ j, j < 64 → recorded ops (64 * a + j) = recorded ops (64 * b + j)

/-- The two halves of ASCII have different properties, and the first half has none at all or the same as a block of 64
characters among U+0800 … U+FFFF. -/
def AsciiClash (ops : List TableOp) : Prop :=
  ¬ SameBlock ops 0 1 ∧
    ((∀ j, j < 64 → recorded ops j = 0) ∨ ∃ k, 32 ≤ k ∧ k < 1024 ∧ SameBlock ops k 0)

/-- The number of index blocks passed after the first byte, whose low six bits are `i`. -/
def indexLevels (i : Nat) : Nat := if i < 32 then 0 else if i < 48 then 1 else 2

/-- Block number `v` exists, and so do all blocks that it refers to directly or not. After `n` more levels of index blocks
there is a property block. -/
def Refers (indices : List UInt16) (props : List UInt8) : (n : Nat) → (v : Nat) → Prop
  | 0, v => 64 * v + 64 ≤ props.length
  | n + 1, v => ∀ d, d < 64 → ∃ w, indices[64 * v + d]? = some w ∧ Refers indices props n w.toNat

/-! ## What the data files ask for

An entry of a data file is (first, last, fields), see `Verif/Spec/UCDFormat.lean`. The three files are
GraphemeBreakProperty.txt, emoji-data.txt and DerivedCoreProperties.txt. -/

abbrev FileEntry := Nat × Nat × List (List UInt8)

/-- One operation for every code point from `x.1` to `x.2.1`, in ascending order. -/
def forEach (op : Int32 → TableOp) (x : FileEntry) : List TableOp :=
  (List.range (x.2.1 + 1 - x.1)).map fun i => op (Int32.ofNat (x.1 + i))

/-- An ASCII text as bytes. -/
def ascii (s : String) : List UInt8 := s.toList.map fun c => UInt8.ofNat c.val.toNat

/-- The operations for an entry of GraphemeBreakProperty.txt: set the property that the first field names. -/
def gcbOps (code : List UInt8 → UInt8) (x : FileEntry) : List TableOp :=
  match x.2.2 with
  | name :: _ => forEach (fun r => .set r (code name)) x
  | [] => []

/-- The operations for an entry of emoji-data.txt: set 4 if the first field is Extended_Pictographic. -/
def emojiOps (x : FileEntry) : List TableOp :=
  match x.2.2 with
  | name :: _ => if name = ascii "Extended_Pictographic" then forEach (fun r => .set r 4) x else []
  | [] => []

/-- The operations for an entry of DerivedCoreProperties.txt: if the first field is InCB, add the property that the second
field names. -/
def incbOps (code : List UInt8 → UInt8) (x : FileEntry) : List TableOp :=
  match x.2.2 with
  | prop :: name :: _ => if prop = ascii "InCB" then forEach (fun r => .bitwiseOr r (code name)) x else []
  | _ => []

/-- The operations for the entries of the three files, in this order. `gcbOf` and `incbOf` give the codes of names. -/
def fileOps (gcbOf incbOf : List UInt8 → UInt8) (es1 es2 es3 : List FileEntry) : List TableOp :=
  es1.flatMap (gcbOps gcbOf) ++ (es2.flatMap emojiOps ++ es3.flatMap (incbOps incbOf))

/-- The entry covers the code point. -/
def FileEntry.covers (x : FileEntry) (c : Nat) : Bool := x.1 ≤ c && c ≤ x.2.1

/-- The Grapheme_Cluster_Break name for a code point: that in the last entry that covers it. -/
def gcbListed (es1 : List FileEntry) (c : Nat) : Option (List UInt8) :=
  ((es1.filter fun x => x.covers c).getLast?).bind fun x => x.2.2.head?

/-- The code point is Extended_Pictographic. -/
def pictListed (es2 : List FileEntry) (c : Nat) : Bool :=
  es2.any fun x => x.covers c && x.2.2.head? == some (ascii "Extended_Pictographic")

/-- The Indic_Conjunct_Break names for a code point. -/
def incbListed (es3 : List FileEntry) (c : Nat) : List (List UInt8) :=
  (es3.filter fun x => x.covers c && x.2.2.head? == some (ascii "InCB")).filterMap fun x => x.2.2[1]?

/-- The property of a code point that is to be recorded: the code 4 or that of its Grapheme_Cluster_Break name, together
with the codes of its Indic_Conjunct_Break names. -/
def listedProps (gcbOf incbOf : List UInt8 → UInt8) (es1 es2 es3 : List FileEntry) (c : Nat) : UInt8 :=
  (if pictListed es2 c then 4 else ((gcbListed es1 c).map gcbOf).getD 0) |||
    ((incbListed es3 c).map incbOf).foldl (· ||| ·) 0

/-- The relevant entries of the three files are those of the shipped Unicode 17 files (`Verif/Spec/UCDData.lean`). The second
and the third file may contain any other entries with a different first field. -/
structure ShippedEntries (es1 es2 es3 : List FileEntry) : Prop where
  gcb : es1.map (fun x => (x.1, x.2.1, x.2.2.head?)) =
    graphemeBreakProperty.map fun r => (r.1, r.2.1, some (ascii r.2.2.ucdName))
  pict : (es2.filter fun x => x.2.2.head? == some (ascii "Extended_Pictographic")).map (fun x => (x.1, x.2.1)) =
    extendedPictographic.map fun r => (r.1, r.2.1)
  incb : (es3.filter fun x => x.2.2.head? == some (ascii "InCB")).map (fun x => (x.1, x.2.1, x.2.2[1]?)) =
    indicConjunctBreak.map fun r => (r.1, r.2.1, some (ascii r.2.2.ucdName))

end Textseg.Spec
