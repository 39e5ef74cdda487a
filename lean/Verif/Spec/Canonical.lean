import Verif.Spec.Bytes
import Verif.Spec.UCDFormat
/-!
# Specification: different spellings of the same text

The repository does not contain the canonical decompositions of characters (UnicodeData.txt), except that those of Hangul
syllables are a matter of arithmetic. The other steps are described by the properties of the characters that take part. (With one
exception, all canonical decompositions of Unicode are of these forms; see `C55_exception`.)
-/

namespace Textseg.Spec

/-- The Hangul syllable with the leading consonant number `l`, the vowel number `v` and the trailing consonant number `t` (0 for
none), and the conjoining jamo for these (The Unicode Standard, section 3.12). -/
def hangulSyllable (l v t : Nat) : Char := Char.ofNat (0xAC00 + (l * 21 + v) * 28 + t)
def jamoL (l : Nat) : Char := Char.ofNat (0x1100 + l)
def jamoV (v : Nat) : Char := Char.ofNat (0x1161 + v)
def jamoT (t : Nat) : Char := Char.ofNat (0x11A7 + t)

/-- The full canonical decomposition of a Hangul syllable; other characters are left alone. -/
def decomposeHangul (c : Char) : List Char :=
  if 0xAC00 ≤ c.val.toNat ∧ c.val.toNat < 0xAC00 + 11172 then
    let s := c.val.toNat - 0xAC00
    if s % 28 = 0 then [jamoL (s / 588), jamoV (s % 588 / 28)]
    else [jamoL (s / 588), jamoV (s % 588 / 28), jamoT (s % 28)]
  else [c]

/-- A combining mark as it occurs in decompositions. -/
def IsMark (m : Char) : Prop := gcbOf m = .Extend ∧ incbOf m = .Extend

/-- Two spellings of the same thing. -/
inductive Respelled : List Char → List Char → Prop
  /-- a Hangul syllable without trailing consonant -/
  | lv (l v : Nat) : l < 19 → v < 21 → Respelled [hangulSyllable l v 0] [jamoL l, jamoV v]
  /-- a Hangul syllable with trailing consonant -/
  | lvt (l v t : Nat) : l < 19 → v < 21 → 0 < t → t < 28 → Respelled [hangulSyllable l v t] [hangulSyllable l v 0, jamoT t]
  /-- a letter, as a letter and a mark -/
  | letter (c b m : Char) : gcbOf c = .Other → ¬ isPict c → gcbOf b = .Other → ¬ isPict b → incbOf b = incbOf c → IsMark m →
      Respelled [c] [b, m]
  /-- a spacing mark, as a spacing mark and a mark -/
  | spacing (c b m : Char) : gcbOf c = .SpacingMark → gcbOf b = .SpacingMark → IsMark m → Respelled [c] [b, m]
  /-- a mark, as two marks -/
  | mark (c b m : Char) : IsMark c → IsMark b → IsMark m → Respelled [c] [b, m]
  /-- another character with the same properties -/
  | same (c b : Char) : ucd c.val.toNat = ucd b.val.toNat → Respelled [c] [b]
  /-- nonspacing marks in another order -/
  | swap (m n : Char) : gcbOf m = .Extend → gcbOf n = .Extend → Respelled [m, n] [n, m]

/-- Texts that arise from each other by respelling parts of them, any number of times and in both directions. -/
inductive SameText : List Char → List Char → Prop
  | step (pre a b post : List Char) : Respelled a b → SameText (pre ++ a ++ post) (pre ++ b ++ post)
  | refl (a : List Char) : SameText a a
  | symm (a b : List Char) : SameText a b → SameText b a
  | trans (a b c : List Char) : SameText a b → SameText b c → SameText a c

end Textseg.Spec
