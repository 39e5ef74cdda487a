import Verif.Spec.UAX29
/-!
# Specification: the regular expression for extended grapheme clusters (UAX #29, section 3, tables 1b and 1c)

UAX #29 describes clusters in two ways: by boundary rules (`Spec/UAX29.lean`), and by a regular expression, to be matched as far
as possible from the last boundary. This is the second way. It shares nothing with the first except the property values.
-/

namespace Textseg.Spec.Grammar

/-- A regular language: which texts match. -/
abbrev Lang := Text → Prop

/-- One character of a class. -/
def one (P : CharProps → Prop) : Lang := fun w => ∃ c, w = [c] ∧ P c
/-- One of a list of grapheme cluster break values. -/
def gcb (gs : List GCB) : Lang := one fun c => c.gcb ∈ gs
/-- `A B` -/
def seq (A B : Lang) : Lang := fun w => ∃ u v, w = u ++ v ∧ A u ∧ B v
/-- `A | B` -/
def alt (A B : Lang) : Lang := fun w => A w ∨ B w
/-- `A*` -/
inductive star (A : Lang) : Lang
  | nil : star A []
  | more (u v : Text) : A u → star A v → star A (u ++ v)
/-- `A+` -/
def plus (A : Lang) : Lang := seq A (star A)

/-- `crlf := CR LF` -/
def crlf : Lang := seq (gcb [.CR]) (gcb [.LF])

/-- `hangul-syllable := L* (V+ | LV V* | LVT) T* | L+ | T+` -/
def hangulSyllable : Lang :=
  alt (seq (star (gcb [.L])) (seq (alt (plus (gcb [.V])) (alt (seq (gcb [.LV]) (star (gcb [.V]))) (gcb [.LVT])))
    (star (gcb [.T])))) (alt (plus (gcb [.L])) (plus (gcb [.T])))

/-- `RI-sequence := RI RI` -/
def riSequence : Lang := seq (gcb [.RegionalIndicator]) (gcb [.RegionalIndicator])

/-- `\p{Extended_Pictographic}` -/
def pict : Lang := one fun c => c.extPict = true

/-- `xpicto-sequence := \p{Extended_Pictographic} (Extend* ZWJ \p{Extended_Pictographic})*` -/
def xpictoSequence : Lang := seq pict (star (seq (star (gcb [.Extend])) (seq (gcb [.ZWJ]) pict)))

/-- `\p{InCB=Consonant}` -/
def consonant : Lang := one fun c => c.incb = .Consonant
/-- `\p{InCB=Linker}` -/
def linker : Lang := one fun c => c.incb = .Linker
/-- `[\p{InCB=Extend} \p{InCB=Linker}]` -/
def extendLinker : Lang := one fun c => c.incb = .Extend ∨ c.incb = .Linker

/-- `conjunctCluster := \p{InCB=Consonant} ([\p{InCB=Extend} \p{InCB=Linker}]* \p{InCB=Linker}
[\p{InCB=Extend} \p{InCB=Linker}]* \p{InCB=Consonant})+` -/
def conjunctCluster : Lang :=
  seq consonant (plus (seq (star extendLinker) (seq linker (seq (star extendLinker) consonant))))

/-- `core := hangul-syllable | RI-sequence | xpicto-sequence | conjunctCluster | [^Control CR LF]` -/
def core : Lang := alt hangulSyllable (alt riSequence (alt xpictoSequence (alt conjunctCluster (one fun c => ¬ c.isControl))))

/-- `precore := Prepend` -/
def precore : Lang := gcb [.Prepend]
/-- `postcore := [Extend ZWJ SpacingMark]` -/
def postcore : Lang := gcb [.Extend, .ZWJ, .SpacingMark]

/-- `egc := crlf | Control | precore* core postcore*` (where a CR or an LF alone counts as a control) -/
def egc : Lang := alt crlf (alt (one CharProps.isControl) (seq (star precore) (seq core (star postcore))))

/-- Cutting a text by matching, again and again, the longest possible piece. -/
inductive Greedy (A : List Char → Prop) : List Char → List (List Char) → Prop
  | nil : Greedy A [] []
  | cons (u v : List Char) (segs : List (List Char)) : u ≠ [] → A u →
      (∀ u' v', u' ++ v' = u ++ v → A u' → u'.length ≤ u.length) → Greedy A v segs → Greedy A (u ++ v) (u :: segs)

end Textseg.Spec.Grammar
