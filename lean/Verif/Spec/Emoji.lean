import Verif.Spec.Bytes
import Verif.Spec.EmojiData
/-!
# Specification: the emoji sequences of UTS #51
-/

namespace Textseg.Spec

/-- The character has the property, according to emoji-data.txt. -/
def HasEmojiProperty (k : EmojiProperty) (c : Char) : Prop := ∃ r ∈ emojiEntries, r.2.2 = k ∧ r.1 ≤ c.val.toNat ∧ c.val.toNat ≤ r.2.1

/-- `0` to `9`, `#` and `*` are emoji, because keycaps begin with them. -/
def keycapBases : List Char := ['0', '1', '2', '3', '4', '5', '6', '7', '8', '9', '#', '*']

/-- The regional indicator for a letter (`A` is 0). -/
def regionalIndicator (n : Nat) : Char := Char.ofNat (0x1F1E6 + n)

/-- The tag for an ASCII character, or (0x7F) the cancel tag. -/
def tagChar (n : Nat) : Char := Char.ofNat (0xE0000 + n)

/-- An emoji character, an emoji (or text) presentation sequence, or an emoji modifier sequence (ED-1, ED-8a, ED-9a, ED-13). -/
inductive EmojiElement : List Char → Prop
  | character (c : Char) : HasEmojiProperty .Emoji c → EmojiElement [c]
  | emojiPresentation (c : Char) : HasEmojiProperty .Emoji c → EmojiElement [c, '\uFE0F']
  | textPresentation (c : Char) : HasEmojiProperty .Emoji c → EmojiElement [c, '\uFE0E']
  | modified (c m : Char) : HasEmojiProperty .ModifierBase c → HasEmojiProperty .Modifier m → EmojiElement [c, m]

/-- Not a keycap base, a regional indicator or a modifier. -/
def EmojiJoinable (c : Char) : Prop := c ∉ keycapBases ∧ (∀ n, n < 26 → c ≠ regionalIndicator n) ∧ ¬ HasEmojiProperty .Modifier c

/-- Elements (at least one) joined by ZWJ (ED-16). In a sequence of two or more, no element may begin with a keycap base, a
regional indicator or a modifier; UTS #51 recommends no such sequence, but does not exclude them. -/
inductive EmojiJoined : List Char → Prop
  | one (c : Char) (s : List Char) : EmojiElement (c :: s) → EmojiJoinable c → EmojiJoined (c :: s)
  | more (t : List Char) (c : Char) (s : List Char) : EmojiJoined t → EmojiElement (c :: s) → EmojiJoinable c →
      EmojiJoined (t ++ '\u200D' :: c :: s)

/-- The emoji sequences (ED-17), except flags. -/
inductive EmojiSequence : List Char → Prop
  | element (s : List Char) : EmojiElement s → EmojiSequence s
  | keycap (k : Char) : k ∈ keycapBases → EmojiSequence [k, '\uFE0F', '\u20E3']
  /-- an emoji tag sequence (ED-14a) -/
  | tag (s : List Char) (ns : List Nat) : EmojiElement s → (∀ n ∈ ns, 0x20 ≤ n ∧ n ≤ 0x7E) →
      EmojiSequence (s ++ ns.map tagChar ++ [tagChar 0x7F])
  | joined (s : List Char) : EmojiJoined s → EmojiSequence s

end Textseg.Spec
