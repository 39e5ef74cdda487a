/-!
# Specification: cutting a list exactly at given positions
-/

namespace Textseg.Spec

/-- `segs` are the non-empty pieces of `text` when it is cut exactly at the inner positions where `B before after`
holds: there is a cut after `before` (that is, `before` is made of whole pieces) exactly if `B before after`. -/
structure IsSegmentation {α : Type} (B : List α → List α → Prop) (text : List α) (segs : List (List α)) : Prop where
  concat : segs.flatten = text
  nonempty : ∀ s ∈ segs, s ≠ []
  cuts : ∀ before after, text = before ++ after → before ≠ [] → after ≠ [] →
    (B before after ↔ ∃ k, before = (segs.take k).flatten)

/-- There is a token boundary at offset `n`: the first `k` tokens, for some `k`, have `n` elements together. -/
def CutAt {α : Type} (toks : List (List α)) (n : Nat) : Prop := ∃ k, n = (toks.take k).flatten.length

end Textseg.Spec
