import Verif.Proofs.Canonical
import Verif.Model.Text
/-!
# C55: different spellings of the same text have the same tokens
-/

namespace Textseg
open Spec

/-- **C55.** Respelling parts of a text, for example composing or decomposing characters or reordering marks, changes neither the
number of its tokens nor which token is which: the tokens of the two texts, in order, are respellings of each other. -/
theorem C55_same_text {a b : List Char} (h : SameText a b) : ∃ sa sb : List (List Char),
    tokens (utf8 a) = .ok (sa.map utf8) ∧ sa.flatten = a ∧ tokens (utf8 b) = .ok (sb.map utf8) ∧ sb.flatten = b ∧
    ForallTwo SameText sa sb :=
  ⟨_, _, tokens_segsOf a, segsOf_flatten a, tokens_segsOf b, segsOf_flatten b, segs_sameText h⟩

/-- **C55.** If every character is replaced by another spelling, always the same one for the same character, the tokens are those
of the original text with their characters so replaced. -/
theorem C55_respelled_characters (D : Char → List Char) (hD : ∀ c, Respelled [c] (D c)) (cs : List Char) :
    ∃ segs : List (List Char), tokens (utf8 cs) = .ok (segs.map utf8) ∧ segs.flatten = cs ∧
      tokens (utf8 (cs.flatMap D)) = .ok (segs.map fun s => utf8 (s.flatMap D)) := by
  refine ⟨_, tokens_segsOf cs, segsOf_flatten cs, ?_⟩
  rw [tokens_segsOf, segsOf_flatMap (fun c => respelled_one (hD c)), List.map_map]
  rfl

/-- **C55.** In particular, the tokens of a text with all Hangul syllables decomposed are the decomposed tokens of the text. -/
theorem C55_hangul_decomposition (cs : List Char) : ∃ segs : List (List Char), tokens (utf8 cs) = .ok (segs.map utf8) ∧
    segs.flatten = cs ∧ tokens (utf8 (cs.flatMap decomposeHangul)) = .ok (segs.map fun s => utf8 (s.flatMap decomposeHangul)) := by
  refine ⟨_, tokens_segsOf cs, segsOf_flatten cs, ?_⟩
  rw [tokens_segsOf, segsOf_flatMap block_hangul, List.map_map]
  rfl

/-- **C55.** The exception: U+21AE is not pictographic, but its canonical decomposition, U+2194 U+0338, begins with a pictographic
character. Before ZWJ and another such character, the two spellings differ in the number of tokens. -/
theorem C55_exception :
    tokens (utf8 ['\u21AE', '\u200D', '\u2764']) = .ok [utf8 ['\u21AE', '\u200D'], utf8 ['\u2764']] ∧
    tokens (utf8 ['\u2194', '\u0338', '\u200D', '\u2764']) = .ok [utf8 ['\u2194', '\u0338', '\u200D', '\u2764']] := by
  decide +kernel

/-- **C55.** Characters with the same properties are interchangeable: texts that agree in the properties of their characters, one
by one, are cut at the same places. -/
theorem C55_properties_decide {a b : List Char} (h : ForallTwo (fun x y => ucd x.val.toNat = ucd y.val.toNat) a b) :
    ∃ sa sb : List (List Char), tokens (utf8 a) = .ok (sa.map utf8) ∧ sa.flatten = a ∧
      tokens (utf8 b) = .ok (sb.map utf8) ∧ sb.flatten = b ∧ sa.map List.length = sb.map List.length :=
  ⟨_, _, tokens_segsOf a, segsOf_flatten a, tokens_segsOf b, segsOf_flatten b, segsOf_congr h⟩

/-- é, two spellings; क़, two spellings; 한, three spellings; q with two marks, in two orders. -/
example : Respelled ['\u00E9'] ['e', '\u0301'] :=
  .letter _ _ _ (by decide +kernel) (by decide +kernel) (by decide +kernel) (by decide +kernel) (by decide +kernel) (by unfold IsMark; decide +kernel)
example : Respelled ['\u0958'] ['\u0915', '\u093C'] :=
  .letter _ _ _ (by decide +kernel) (by decide +kernel) (by decide +kernel) (by decide +kernel) (by decide +kernel) (by unfold IsMark; decide +kernel)
example : SameText ['\uD55C'] ['\u1112', '\u1161', '\u11AB'] :=
  .trans _ ['\uD558', '\u11AB'] _ (.step [] _ _ [] (.lvt 18 0 4 (by decide) (by decide) (by decide) (by decide)))
    (.step [] ['\uD558'] ['\u1112', '\u1161'] ['\u11AB'] (.lv 18 0 (by decide) (by decide)))
example : SameText ['q', '\u0307', '\u0323'] ['q', '\u0323', '\u0307'] :=
  .step ['q'] ['\u0307', '\u0323'] ['\u0323', '\u0307'] [] (.swap _ _ (by decide +kernel) (by decide +kernel))
/-- A text with consonants, a virama and an added nukta, which is one token in both spellings. -/
example : tokens (utf8 ['\u0958', '\u094D', '\u0937']) = .ok [utf8 ['\u0958', '\u094D', '\u0937']] ∧
    tokens (utf8 ['\u0915', '\u093C', '\u094D', '\u0937']) = .ok [utf8 ['\u0915', '\u093C', '\u094D', '\u0937']] := by decide +kernel
example : ('\uD55C' :: ['\uAE00']).flatMap decomposeHangul = ['\u1112', '\u1161', '\u11AB', '\u1100', '\u1173', '\u11AF'] := by
  decide +kernel

end Textseg
