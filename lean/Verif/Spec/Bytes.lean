import Verif.Spec.UCD
import Verif.Spec.Segmentation
/-!
# Specification: bytes, structurally well-formed UTF-8 sequences, boundaries on arbitrary bytes
-/

namespace Textseg.Spec

/-- UTF-8 encoding of a text (Lean's `Char` is exactly a Unicode scalar value; `String.utf8EncodeChar` is Lean's own
UTF-8 encoder). -/
def utf8 (cs : List Char) : List UInt8 := cs.flatMap String.utf8EncodeChar

/-- A UTF-8 continuation byte (bit pattern `10xxxxxx`). -/
def IsCont (b : UInt8) : Prop := 0x80 ≤ b ∧ b ≤ 0xBF

/-- A structurally well-formed UTF-8 sequence: a lead byte and as many continuation bytes as it announces. Overlong
forms, surrogates and values above U+10FFFF are *not* excluded. -/
inductive IsSeq : List UInt8 → Prop where
  | one (b : UInt8) : b ≤ 0x7F → IsSeq [b]
  | two (b c : UInt8) : 0xC0 ≤ b → b ≤ 0xDF → IsCont c → IsSeq [b, c]
  | three (b c d : UInt8) : 0xE0 ≤ b → b ≤ 0xEF → IsCont c → IsCont d → IsSeq [b, c, d]
  | four (b c d e : UInt8) : 0xF0 ≤ b → b ≤ 0xF7 → IsCont c → IsCont d → IsCont e → IsSeq [b, c, d, e]

/-- The number of bytes that a first byte announces for its sequence (RFC 3629, and the four-byte pattern `11110xxx` in
full); `none` for a byte that cannot start a sequence. -/
def announced (b : UInt8) : Option Nat :=
  if b ≤ 0x7F then some 1 else if b ≤ 0xBF then none else if b ≤ 0xDF then some 2 else if b ≤ 0xEF then some 3
  else if b ≤ 0xF7 then some 4 else none

/-- The beginning of a sequence: a lead byte followed by fewer bytes than it announces. (What the bytes are does not
matter; see C14.) -/
def IsIncomplete (p : List UInt8) : Prop := ∃ b t n, p = b :: t ∧ announced b = some n ∧ p.length < n

/-- The number that the payload bits of a sequence form (RFC 3629, section 3). -/
def decoded : List UInt8 → Nat
  | [b] => b.toNat
  | [b, c] => (b.toNat % 32) * 64 + c.toNat % 64
  | [b, c, d] => (b.toNat % 16) * 4096 + (c.toNat % 64) * 64 + d.toNat % 64
  | [b, c, d, e] => (b.toNat % 8) * 262144 + (c.toNat % 64) * 4096 + (d.toNat % 64) * 64 + e.toNat % 64
  | _ => 0

open Classical in
/-- The properties of a structurally well-formed sequence: those of the character it encodes (in shortest form), and
"no property" if it encodes none. -/
noncomputable def seqProps (bs : List UInt8) : CharProps :=
  if h : ∃ c : Char, String.utf8EncodeChar c = bs then ucd (Classical.choose h).val.toNat else CharProps.none

/-- What a byte string is made of: sequences and left-over (invalid) bytes. -/
inductive Piece where
  | seq (bs : List UInt8)
  | bad (b : UInt8)
deriving DecidableEq, Repr

/-- The bytes of a piece. -/
def Piece.bytes : Piece → List UInt8
  | .seq bs => bs
  | .bad b => [b]

/-- The bytes of several pieces. -/
def piecesBytes (ps : List Piece) : List UInt8 := ps.flatMap Piece.bytes

/-- `Pieces data ps`: reading `data` from left to right, a structurally well-formed sequence at the front is taken as one
piece; if there is none, the first byte is a left-over byte. -/
inductive Pieces : List UInt8 → List Piece → Prop where
  | nil : Pieces [] []
  | seq (bs rest : List UInt8) (ps : List Piece) : IsSeq bs → Pieces rest ps → Pieces (bs ++ rest) (.seq bs :: ps)
  | bad (b : UInt8) (rest : List UInt8) (ps : List Piece) :
      (¬ ∃ bs rest', IsSeq bs ∧ b :: rest = bs ++ rest') → Pieces rest ps → Pieces (b :: rest) (.bad b :: ps)

/-- The characters at the front of a list of pieces, up to the first left-over byte. -/
noncomputable def leadingRun : List Piece → Text
  | .seq bs :: ps => seqProps bs :: leadingRun ps
  | _ => []

/-- The characters at the end of a list of pieces, back to the last left-over byte. -/
noncomputable def trailingRun (ps : List Piece) : Text := (leadingRun ps.reverse).reverse

/-- Boundaries between pieces: on both sides of a left-over byte, and where UAX #29 demands one in the run of
characters around the position. -/
def PieceBoundary (before after : List Piece) : Prop :=
  trailingRun before = [] ∨ leadingRun after = [] ∨ Boundary (trailingRun before) (leadingRun after)

/-- Boundaries of a text of Unicode scalar values. -/
def CharBoundary (before after : List Char) : Prop :=
  Boundary (before.map fun c => ucd c.val.toNat) (after.map fun c => ucd c.val.toNat)

/-- Property values of a character. -/
abbrev gcbOf (c : Char) : GCB := (ucd c.val.toNat).gcb
abbrev incbOf (c : Char) : InCB := (ucd c.val.toNat).incb
abbrev isPict (c : Char) : Prop := (ucd c.val.toNat).extPict = true
/-- CR, LF or Control. -/
abbrev isCtlChar (c : Char) : Prop := (ucd c.val.toNat).isControl

/-- The part `mid` of a text, which comes after `pre`, lies in a single token: no token boundary inside it. -/
def Unbroken (toks : List (List UInt8)) (pre mid : List Char) : Prop :=
  ∀ u v, mid = u ++ v → u ≠ [] → v ≠ [] → ¬ CutAt toks (utf8 (pre ++ u)).length

/-- Tokens of ASCII text: single bytes, except CR LF. -/
def asciiTokens : List UInt8 → List (List UInt8)
  | 0x0D :: 0x0A :: rest => [0x0D, 0x0A] :: asciiTokens rest
  | b :: rest => [b] :: asciiTokens rest
  | [] => []

/-- Pairs, counted from the left; a last single element if the number is odd. -/
def pairUp {α : Type} : List α → List (List α)
  | a :: b :: rest => [a, b] :: pairUp rest
  | [a] => [[a]]
  | [] => []

/-- A Hangul syllable block, standard or without all its parts: `L* (V+ | LV V* | LVT) T*`, or `L*`, or `T*`. -/
def IsHangulBlock (js : List Char) : Prop :=
  ∃ ls mid ts, js = ls ++ mid ++ ts ∧ (∀ c ∈ ls, gcbOf c = .L) ∧ (∀ c ∈ ts, gcbOf c = .T) ∧
    ((mid ≠ [] ∧ ∀ c ∈ mid, gcbOf c = .V) ∨
     (∃ c vs, mid = c :: vs ∧ gcbOf c = .LV ∧ ∀ v ∈ vs, gcbOf v = .V) ∨
     (∃ c, mid = [c] ∧ gcbOf c = .LVT) ∨
     (mid = [] ∧ (ls = [] ∨ ts = [])))

/-- An emoji ZWJ sequence: elements `ExtPict Extend*`, joined by ZWJ, any number of them. -/
inductive IsEmojiZwj : List Char → Prop where
  | element (p : Char) (xs : List Char) : isPict p → (∀ x ∈ xs, gcbOf x = .Extend) → IsEmojiZwj (p :: xs)
  | join (s : List Char) (z p : Char) (xs : List Char) : IsEmojiZwj s → gcbOf z = .ZWJ → isPict p →
      (∀ x ∈ xs, gcbOf x = .Extend) → IsEmojiZwj (s ++ z :: p :: xs)

end Textseg.Spec
