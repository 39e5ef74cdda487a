import Verif.Proofs.DataText
import Verif.Text.BreakProperty
import Verif.Text.EmojiData
import Verif.Text.DerivedCoreProperties
/-!
# The three data files in /repo contain the entries of `Verif/Spec/UCDData.lean`
-/

namespace Textseg.Gen
open Textseg Spec

/-- The kinds of lines in GraphemeBreakProperty.txt. -/
def breakKinds : List Kind := [
  ⟨text! "; Extend #", 0x100000000000000000000, 4, [(1, ascii "Extend", 1)]⟩,
  ⟨text! "; LVT #", 0x100000000000000, 13, [(1, ascii "LVT", 1)]⟩,
  ⟨text! "; LV #", 0x1000000000000, 12, [(1, ascii "LV", 1)]⟩,
  ⟨text! "; SpacingMark #", 0x1000000000000000000000000000000, 8, [(1, ascii "SpacingMark", 1)]⟩,
  ⟨text! "; Control #", 0x10000000000000000000000, 3, [(1, ascii "Control", 1)]⟩,
  ⟨text! "; Prepend #", 0x10000000000000000000000, 7, [(1, ascii "Prepend", 1)]⟩,
  ⟨text! "; V #", 0x10000000000, 10, [(1, ascii "V", 1)]⟩,
  ⟨text! "; T #", 0x10000000000, 11, [(1, ascii "T", 1)]⟩,
  ⟨text! "; L #", 0x10000000000, 9, [(1, ascii "L", 1)]⟩,
  ⟨text! "; ZWJ #", 0x100000000000000, 5, [(1, ascii "ZWJ", 1)]⟩,
  ⟨text! "; Regional_Indicator #", 0x100000000000000000000000000000000000000000000, 6, [(1, ascii "Regional_Indicator", 1)]⟩,
  ⟨text! "; LF #", 0x1000000000000, 2, [(1, ascii "LF", 1)]⟩,
  ⟨text! "; CR #", 0x1000000000000, 1, [(1, ascii "CR", 1)]⟩]

/-- The kinds of lines in emoji-data.txt. -/
def emojiKinds : List Kind := [
  ⟨text! "; Extended_Pictographic#", 0x1000000000000000000000000000000000000000000000000, 1, [(1, ascii "Extended_Pictographic", 0)]⟩,
  ⟨text! "; Emoji                #", 0x1000000000000000000000000000000000000000000000000, 0, [(1, ascii "Emoji", 16)]⟩,
  ⟨text! "; Emoji_Presentation   #", 0x1000000000000000000000000000000000000000000000000, 0, [(1, ascii "Emoji_Presentation", 3)]⟩,
  ⟨text! "; Emoji_Modifier_Base  #", 0x1000000000000000000000000000000000000000000000000, 0, [(1, ascii "Emoji_Modifier_Base", 2)]⟩,
  ⟨text! "; Emoji_Component      #", 0x1000000000000000000000000000000000000000000000000, 0, [(1, ascii "Emoji_Component", 6)]⟩,
  ⟨text! "; Emoji_Modifier       #", 0x1000000000000000000000000000000000000000000000000, 0, [(1, ascii "Emoji_Modifier", 7)]⟩]

/-- The kinds of lines in DerivedCoreProperties.txt. -/
def derivedKinds : List Kind := [
  ⟨text! "; Grapheme_Base #", 0x10000000000000000000000000000000000, 0, [(1, ascii "Grapheme_Base", 1)]⟩,
  ⟨text! "; XID_Continue #", 0x100000000000000000000000000000000, 0, [(1, ascii "XID_Continue", 1)]⟩,
  ⟨text! "; ID_Continue #", 0x1000000000000000000000000000000, 0, [(1, ascii "ID_Continue", 1)]⟩,
  ⟨text! "; Alphabetic #", 0x10000000000000000000000000000, 0, [(1, ascii "Alphabetic", 1)]⟩,
  ⟨text! "; XID_Start #", 0x100000000000000000000000000, 0, [(1, ascii "XID_Start", 1)]⟩,
  ⟨text! "; ID_Start #", 0x1000000000000000000000000, 0, [(1, ascii "ID_Start", 1)]⟩,
  ⟨text! "; Lowercase #", 0x100000000000000000000000000, 0, [(1, ascii "Lowercase", 1)]⟩,
  ⟨text! "; Uppercase #", 0x100000000000000000000000000, 0, [(1, ascii "Uppercase", 1)]⟩,
  ⟨text! "; Changes_When_Uppercased #", 0x1000000000000000000000000000000000000000000000000000000, 0, [(1, ascii "Changes_When_Uppercased", 1)]⟩,
  ⟨text! "; Changes_When_Titlecased #", 0x1000000000000000000000000000000000000000000000000000000, 0, [(1, ascii "Changes_When_Titlecased", 1)]⟩,
  ⟨text! "; Changes_When_Casefolded #", 0x1000000000000000000000000000000000000000000000000000000, 0, [(1, ascii "Changes_When_Casefolded", 1)]⟩,
  ⟨text! "; Changes_When_Lowercased #", 0x1000000000000000000000000000000000000000000000000000000, 0, [(1, ascii "Changes_When_Lowercased", 1)]⟩,
  ⟨text! "; Case_Ignorable #", 0x1000000000000000000000000000000000000, 0, [(1, ascii "Case_Ignorable", 1)]⟩,
  ⟨text! "; Grapheme_Extend #", 0x100000000000000000000000000000000000000, 0, [(1, ascii "Grapheme_Extend", 1)]⟩,
  ⟨text! "; InCB; Extend #", 0x100000000000000000000000000000000, 2, [(1, ascii "InCB", 0), (1, ascii "Extend", 1)]⟩,
  ⟨text! "; Math #", 0x10000000000000000, 0, [(1, ascii "Math", 1)]⟩,
  ⟨text! "; Cased #", 0x1000000000000000000, 0, [(1, ascii "Cased", 1)]⟩,
  ⟨text! "; Changes_When_Casemapped #", 0x1000000000000000000000000000000000000000000000000000000, 0, [(1, ascii "Changes_When_Casemapped", 1)]⟩,
  ⟨text! "; InCB; Consonant #", 0x100000000000000000000000000000000000000, 1, [(1, ascii "InCB", 0), (1, ascii "Consonant", 1)]⟩,
  ⟨text! "; Grapheme_Link #", 0x10000000000000000000000000000000000, 0, [(1, ascii "Grapheme_Link", 1)]⟩,
  ⟨text! "; Default_Ignorable_Code_Point #", 0x10000000000000000000000000000000000000000000000000000000000000000, 0, [(1, ascii "Default_Ignorable_Code_Point", 1)]⟩,
  ⟨text! "; InCB; Linker #", 0x100000000000000000000000000000000, 3, [(1, ascii "InCB", 0), (1, ascii "Linker", 1)]⟩]

def gcbTag : GCB → Nat
  | .Other => 0 | .CR => 1 | .LF => 2 | .Control => 3 | .Extend => 4 | .ZWJ => 5 | .RegionalIndicator => 6 | .Prepend => 7
  | .SpacingMark => 8 | .L => 9 | .V => 10 | .T => 11 | .LV => 12 | .LVT => 13

def gcbFields (t : Nat) : List (List UInt8) := ([[], [ascii "CR"], [ascii "LF"], [ascii "Control"], [ascii "Extend"], [ascii "ZWJ"],
  [ascii "Regional_Indicator"], [ascii "Prepend"], [ascii "SpacingMark"], [ascii "L"], [ascii "V"], [ascii "T"], [ascii "LV"],
  [ascii "LVT"]][t]?).getD []

def incbTag : InCB → Nat | .None => 0 | .Consonant => 1 | .Extend => 2 | .Linker => 3

def incbFields (t : Nat) : List (List UInt8) := ([[], [ascii "InCB", ascii "Consonant"], [ascii "InCB", ascii "Extend"],
  [ascii "InCB", ascii "Linker"]][t]?).getD []

set_option maxRecDepth 1000000 in
theorem break_checked : allRead (partsN gcbTag breakKinds Text.breakProperty graphemeBreakProperty) = true := by decide +kernel

set_option maxRecDepth 1000000 in
theorem emoji_checked : allRead (partsN (fun _ => 1) emojiKinds Text.emojiData extendedPictographic) = true := by decide +kernel

set_option maxRecDepth 1000000 in
theorem derived_checked : allRead (partsN incbTag derivedKinds Text.derivedCore indicConjunctBreak) = true := by decide +kernel

/-- Decidable form of `Kind.Ok`. -/
def kindOkB (rel : List (List UInt8) → Bool) (fieldsOf : Nat → List (List UInt8)) (x : Kind) : Bool :=
  !x.fields.isEmpty && x.fields.all (fun f => f.2.1.all fun b => decide (Plain b)) &&
    x.text == numOf (semicolon :: joinFields (x.fields.map padField) ++ [hash]) &&
    x.size == 256 ^ (semicolon :: joinFields (x.fields.map padField) ++ [hash]).length &&
    (if x.tag = 0 then !rel x.names else rel x.names && x.names == fieldsOf x.tag)

theorem kinds_ok {rel : List (List UInt8) → Bool} {fieldsOf : Nat → List (List UInt8)} {kinds : List Kind}
    (h : kinds.all (kindOkB rel fieldsOf) = true) : ∀ x ∈ kinds, x.Ok rel fieldsOf := by
  intro x hx
  have h := List.all_eq_true.mp h x hx
  unfold kindOkB at h
  simp only [Bool.and_eq_true, beq_iff_eq, List.all_eq_true, decide_eq_true_eq, Bool.not_eq_true', List.isEmpty_eq_false_iff] at h
  obtain ⟨⟨⟨⟨h1, h2⟩, h3⟩, h4⟩, h5⟩ := h
  refine ⟨h1, h2, h3, h4, ?_⟩
  split at h5
  · rename_i ht
    exact .inl ⟨ht, by simpa using h5⟩
  · rename_i ht
    rw [Bool.and_eq_true, beq_iff_eq] at h5
    exact .inr ⟨ht, h5⟩

def pictRel (fs : List (List UInt8)) : Bool := fs.head? == some (ascii "Extended_Pictographic")
def incbRel (fs : List (List UInt8)) : Bool := fs.head? == some (ascii "InCB")

theorem break_kinds : ∀ x ∈ breakKinds, x.Ok (fun _ => true) gcbFields := kinds_ok (by decide +kernel)
theorem emoji_kinds : ∀ x ∈ emojiKinds, x.Ok pictRel (fun _ => [ascii "Extended_Pictographic"]) := kinds_ok (by decide +kernel)
theorem derived_kinds : ∀ x ∈ derivedKinds, x.Ok incbRel incbFields := kinds_ok (by decide +kernel)

/-- No entry of the data has the value `Other` or `None` (which have no line of their own). -/
theorem gcb_tagged : graphemeBreakProperty.all (fun r => !(gcbTag r.2.2 == 0)) = true := by decide +kernel
theorem incb_tagged : indicConjunctBreak.all (fun r => !(incbTag r.2.2 == 0)) = true := by decide +kernel

/-- The lines of the three files mean lists of entries of which the relevant ones are the data. -/
theorem committed_read : ∃ es1 es2 es3, ShippedEntries es1 es2 es3 ∧
    Read (fun _ => true) (fun g => gcbFields (gcbTag g)) Text.breakProperty.flatten graphemeBreakProperty es1 ∧
    Read pictRel (fun _ => [ascii "Extended_Pictographic"]) Text.emojiData.flatten extendedPictographic es2 ∧
    Read incbRel (fun g => incbFields (incbTag g)) Text.derivedCore.flatten indicConjunctBreak es3 := by
  obtain ⟨es1, r1⟩ := allRead_sound break_kinds break_checked
  obtain ⟨es2, r2⟩ := allRead_sound emoji_kinds emoji_checked
  obtain ⟨es3, r3⟩ := allRead_sound derived_kinds derived_checked
  refine ⟨es1, es2, es3, ⟨?_, ?_, ?_⟩, r1, r2, r3⟩
  · have h := r1.filter
    rw [List.filter_eq_self.mpr (by simp)] at h
    rw [h, List.map_map]
    refine List.map_congr_left fun r hr => ?_
    have := List.all_eq_true.mp gcb_tagged r hr
    simp only [Function.comp_apply]
    obtain ⟨a, b, g⟩ := r
    simp only at this ⊢
    cases g <;> first | rfl | (exact absurd this (by decide))
  · have h := r2.filter
    unfold pictRel at h
    rw [h, List.map_map]
    rfl
  · have h := r3.filter
    unfold incbRel at h
    rw [h, List.map_map]
    refine List.map_congr_left fun r hr => ?_
    have := List.all_eq_true.mp incb_tagged r hr
    simp only [Function.comp_apply]
    obtain ⟨a, b, g⟩ := r
    simp only at this ⊢
    cases g <;> first | rfl | (exact absurd this (by decide))

end Textseg.Gen
