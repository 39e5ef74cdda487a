import Verif.Proofs.Lookup
import Verif.Proofs.GoBytes
import Verif.Spec.Names
/-!
# Properties of the packing and naming of property values (C28, C29)
-/

namespace Textseg.Props
open Spec

/-! ## C28 -/

theorem pack_fin : ∀ (g : Fin 16) (i : Fin 16),
    gcbProperty (MakeCharProperties (UInt8.ofNat g.val) GCBNone (UInt8.ofNat (16 * i.val))) = UInt8.ofNat g.val ∧
    gcbProperty (MakeCharProperties GCBNone (UInt8.ofNat g.val) (UInt8.ofNat (16 * i.val))) = UInt8.ofNat g.val ∧
    inCBProperty (MakeCharProperties (UInt8.ofNat g.val) GCBNone (UInt8.ofNat (16 * i.val))) = UInt8.ofNat (16 * i.val) ∧
    inCBProperty (MakeCharProperties GCBNone (UInt8.ofNat g.val) (UInt8.ofNat (16 * i.val))) = UInt8.ofNat (16 * i.val) := by
  decide +kernel

theorem nibbles {P : UInt8 → UInt8 → Prop} (h : ∀ (g i : Fin 16), P (UInt8.ofNat g.val) (UInt8.ofNat (16 * i.val)))
    (g i : UInt8) (hg : g < 16) (hi : i.toNat % 16 = 0) : P g i := by
  have hg' : g.toNat < 16 := hg
  have hi' := i.toNat_lt
  have := h ⟨g.toNat, hg'⟩ ⟨i.toNat / 16, by omega⟩
  rw [show 16 * (i.toNat / 16) = i.toNat by omega] at this
  simpa using this

/-- C28: the byte made from a grapheme cluster break value (or an emoji value; in the low nibble) and an Indic conjunct
break value (in the high nibble) gives both values back. -/
theorem C28_packing_is_lossless (g i : UInt8) (hg : g < 16) (hi : i.toNat % 16 = 0) :
    gcbProperty (MakeCharProperties g GCBNone i) = g ∧ inCBProperty (MakeCharProperties g GCBNone i) = i ∧
    gcbProperty (MakeCharProperties GCBNone g i) = g ∧ inCBProperty (MakeCharProperties GCBNone g i) = i := by
  have := nibbles (P := fun g i => gcbProperty (MakeCharProperties g GCBNone i) = g ∧
    gcbProperty (MakeCharProperties GCBNone g i) = g ∧ inCBProperty (MakeCharProperties g GCBNone i) = i ∧
    inCBProperty (MakeCharProperties GCBNone g i) = i) pack_fin g i hg hi
  exact ⟨this.1, this.2.2.1, this.2.1, this.2.2.2⟩

/-- C28: different pairs of values give different bytes. -/
theorem C28_packing_is_injective (g i g' i' : UInt8) (hg : g < 16) (hi : i.toNat % 16 = 0) (hg' : g' < 16)
    (hi' : i'.toNat % 16 = 0) (h : MakeCharProperties g GCBNone i = MakeCharProperties g' GCBNone i') :
    g = g' ∧ i = i' := by
  have h1 := C28_packing_is_lossless g i hg hi
  have h2 := C28_packing_is_lossless g' i' hg' hi'
  rw [h] at h1
  exact ⟨h1.1.symm.trans h2.1, h1.2.1.symm.trans h2.2.1⟩

/-- C28: only the pair of the two error values gives the error marker. -/
theorem C28_error_is_not_a_value (g i : UInt8) (hg : g < 16) (hi : i.toNat % 16 = 0) :
    MakeCharProperties g GCBNone i = ErrorProps ↔ g = GCBError ∧ i = InCBError := by
  constructor
  · intro h
    have h1 := C28_packing_is_lossless g i hg hi
    rw [h] at h1
    exact ⟨h1.1.symm.trans (by decide), h1.2.1.symm.trans (by decide)⟩
  · rintro ⟨rfl, rfl⟩; rfl

/-- C28: every byte is made from its two parts. -/
theorem C28_every_byte (cp : CharProperties) :
    MakeCharProperties (gcbProperty cp) GCBNone (inCBProperty cp) = cp ∧ gcbProperty cp < 16 ∧
      (inCBProperty cp).toNat % 16 = 0 := by
  revert cp
  apply forall_u8
  decide +kernel

/-- The values in use are of that form, and none of them is an error value. -/
example : ∀ g ∈ [GCBNone, GCBCR, GCBControl, GCBExtend, GCBExtendedPictographic, GCBL, GCBLF, GCBLV, GCBLVT, GCBPrepend,
      GCBRegionalIndicator, GCBSpacingMark, GCBT, GCBV, GCBZWJ], g < 16 ∧ g ≠ GCBError ∧
    ∀ i ∈ [InCBNone, InCBConsonant, InCBExtend, InCBLinker], i.toNat % 16 = 0 ∧ i ≠ InCBError := by decide +kernel

/-! ## C29 -/

theorem gcb_name_cases (name : GoString) (h : ¬ ∃ g : GCB, g ≠ .Other ∧ name = str g.ucdName) :
    LookupGCBProperty name = GCBNone := by
  have hn : ∀ g : GCB, g ≠ .Other → ¬ name = str g.ucdName := fun g hg e => h ⟨g, hg, e⟩
  rw [LookupGCBProperty]
  rw [if_neg (show ¬ name = str "CR" from hn .CR (by decide))]
  rw [if_neg (show ¬ name = str "Control" from hn .Control (by decide))]
  rw [if_neg (show ¬ name = str "Extend" from hn .Extend (by decide))]
  rw [if_neg (show ¬ name = str "L" from hn .L (by decide))]
  rw [if_neg (show ¬ name = str "LF" from hn .LF (by decide))]
  rw [if_neg (show ¬ name = str "LV" from hn .LV (by decide))]
  rw [if_neg (show ¬ name = str "LVT" from hn .LVT (by decide))]
  rw [if_neg (show ¬ name = str "Prepend" from hn .Prepend (by decide))]
  rw [if_neg (show ¬ name = str "Regional_Indicator" from hn .RegionalIndicator (by decide))]
  rw [if_neg (show ¬ name = str "SpacingMark" from hn .SpacingMark (by decide))]
  rw [if_neg (show ¬ name = str "T" from hn .T (by decide))]
  rw [if_neg (show ¬ name = str "V" from hn .V (by decide))]
  rw [if_neg (show ¬ name = str "ZWJ" from hn .ZWJ (by decide))]

theorem incb_name_cases (name : GoString) (h : ¬ ∃ g : InCB, g ≠ .None ∧ name = str g.ucdName) :
    LookupInCBProperty name = InCBNone := by
  have hn : ∀ g : InCB, g ≠ .None → ¬ name = str g.ucdName := fun g hg e => h ⟨g, hg, e⟩
  rw [LookupInCBProperty]
  rw [if_neg (show ¬ name = str "Consonant" from hn .Consonant (by decide))]
  rw [if_neg (show ¬ name = str "Extend" from hn .Extend (by decide))]
  rw [if_neg (show ¬ name = str "Linker" from hn .Linker (by decide))]

/-- C29: the lookup of Grapheme_Cluster_Break names recognises exactly the names of the data file, and gives a value whose
printed name is that name. Every other string gives GCBNone. -/
theorem C29_gcb_names (name : GoString) :
    (LookupGCBProperty name ≠ GCBNone ↔ ∃ g : GCB, g ≠ .Other ∧ name = str g.ucdName) ∧
    (LookupGCBProperty name ≠ GCBNone → gcbString (LookupGCBProperty name) = name) := by
  constructor
  · constructor
    · intro h
      exact Classical.byContradiction fun hn => h (gcb_name_cases name hn)
    · rintro ⟨g, hg, rfl⟩
      revert hg
      cases g <;> decide +kernel
  · intro h
    obtain ⟨g, hg, rfl⟩ := Classical.byContradiction fun hn => h (gcb_name_cases name hn)
    revert hg
    cases g <;> decide +kernel

/-- C29: the value of every name of the data file is different from the others'. -/
theorem C29_gcb_values (g g' : GCB) (h : LookupGCBProperty (str g.ucdName) = LookupGCBProperty (str g'.ucdName)) :
    g = g' := by
  revert h
  cases g <;> cases g' <;> decide +kernel

/-- C29: for Extended_Pictographic. -/
theorem C29_emoji_names (name : GoString) :
    (LookupEmojiProperty name ≠ GCBNone ↔ name = str "Extended_Pictographic") ∧
    (LookupEmojiProperty name ≠ GCBNone → gcbString (LookupEmojiProperty name) = name) := by
  unfold LookupEmojiProperty
  split
  · next h => rw [h]; decide +kernel
  · next h => exact ⟨⟨fun h => absurd rfl h, fun h' => absurd h' h⟩, fun h => absurd rfl h⟩

/-- C29: for Indic_Conjunct_Break. -/
theorem C29_incb_names (name : GoString) :
    (LookupInCBProperty name ≠ InCBNone ↔ ∃ i : InCB, i ≠ .None ∧ name = str i.ucdName) ∧
    (LookupInCBProperty name ≠ InCBNone → inCBString (LookupInCBProperty name) = name) := by
  constructor
  · constructor
    · intro h
      exact Classical.byContradiction fun hn => h (incb_name_cases name hn)
    · rintro ⟨g, hg, rfl⟩
      revert hg
      cases g <;> decide +kernel
  · intro h
    obtain ⟨g, hg, rfl⟩ := Classical.byContradiction fun hn => h (incb_name_cases name hn)
    revert hg
    cases g <;> decide +kernel

/-- C29: the value of every name of the data file is different from the others'. -/
theorem C29_incb_values (i i' : InCB) (h : LookupInCBProperty (str i.ucdName) = LookupInCBProperty (str i'.ucdName)) :
    i = i' := by
  revert h
  cases i <;> cases i' <;> decide +kernel

theorem gcb_prints_low : ∀ p : Fin 16, UInt8.ofNat p.val ≠ GCBNone → UInt8.ofNat p.val ≠ GCBError →
    UInt8.ofNat p.val ≠ GCBExtendedPictographic →
    ([.CR, .LF, .Control, .Extend, .ZWJ, .RegionalIndicator, .Prepend, .SpacingMark, .L, .V, .T, .LV, .LVT] : List GCB).any (fun g =>
      decide (LookupGCBProperty (str g.ucdName) = UInt8.ofNat p.val ∧ gcbString (UInt8.ofNat p.val) = str g.ucdName)) = true := by
  decide +kernel

/-- Two lower-case hexadecimal digits. -/
def IsLowerHex (s : List UInt8) : Prop := s.length = 2 ∧ ∀ x ∈ s, (0x30 ≤ x ∧ x ≤ 0x39) ∨ (0x61 ≤ x ∧ x ≤ 0x66)

instance (s : List UInt8) : Decidable (IsLowerHex s) := inferInstanceAs (Decidable (_ ∧ _))

theorem hex_prints : ∀ p : UInt8, ((sprintf0x02x p).take 2 = str "0x" ∧ ParseUint ((sprintf0x02x p).drop 2) = some p.toNat ∧
    IsLowerHex ((sprintf0x02x p).drop 2)) := by
  apply forall_u8
  decide +kernel

theorem hex_form (p : UInt8) : ∃ ds, sprintf0x02x p = str "0x" ++ ds ∧ IsLowerHex ds ∧ IsHex ds p.toNat := by
  obtain ⟨h1, h2, h3⟩ := hex_prints p
  exact ⟨(sprintf0x02x p).drop 2, by rw [← h1, List.take_append_drop], h3, (ParseUint_iff.mp h2).1⟩

/-- C29: how every Grapheme_Cluster_Break byte is printed: by its name in the data files, or as None, Error or
Extended_Pictographic, and every byte that is no value as `0x` and two lower-case hexadecimal digits. -/
theorem C29_gcb_printed (p : GCBProperty) :
    (p < 16 ∧ ((p = GCBNone ∧ gcbString p = str "None") ∨ (p = GCBError ∧ gcbString p = str "Error") ∨
        (p = LookupEmojiProperty (str "Extended_Pictographic") ∧ gcbString p = str "Extended_Pictographic") ∨
        ∃ g : GCB, g ≠ .Other ∧ p = LookupGCBProperty (str g.ucdName) ∧ gcbString p = str g.ucdName)) ∨
    (16 ≤ p ∧ ∃ ds, gcbString p = str "0x" ++ ds ∧ IsLowerHex ds ∧ IsHex ds p.toNat) := by
  by_cases hp : p.toNat < 16
  · refine .inl ⟨hp, ?_⟩
    by_cases h1 : p = GCBNone
    · subst h1; exact .inl ⟨rfl, by decide +kernel⟩
    by_cases h2 : p = GCBError
    · subst h2; exact .inr (.inl ⟨rfl, by decide +kernel⟩)
    by_cases h3 : p = GCBExtendedPictographic
    · subst h3; exact .inr (.inr (.inl ⟨by decide +kernel, by decide +kernel⟩))
    have e : UInt8.ofNat p.toNat = p := UInt8.ofNat_toNat
    have := gcb_prints_low ⟨p.toNat, hp⟩ (by rw [e]; exact h1) (by rw [e]; exact h2) (by rw [e]; exact h3)
    simp only [e] at this
    rw [List.any_eq_true] at this
    obtain ⟨g, hg, h⟩ := this
    have h := of_decide_eq_true h
    exact .inr (.inr (.inr ⟨g, by rintro rfl; simp at hg, h.1.symm, h.2⟩))
  · right
    have hge : ∀ p : UInt8, 16 ≤ p.toNat → gcbString p = sprintf0x02x p := by
      apply forall_u8
      decide +kernel
    refine ⟨by show 16 ≤ p.toNat; omega, ?_⟩
    rw [hge p (by omega)]
    exact hex_form p

/-- C29: the same for Indic_Conjunct_Break: every byte except those of the three names is printed in hexadecimal. -/
theorem C29_incb_printed (p : InCBProperty) :
    (∃ i : InCB, i ≠ .None ∧ p = LookupInCBProperty (str i.ucdName) ∧ inCBString p = str i.ucdName) ∨
    ((∀ i : InCB, i ≠ .None → p ≠ LookupInCBProperty (str i.ucdName)) ∧
      ∃ ds, inCBString p = str "0x" ++ ds ∧ IsLowerHex ds ∧ IsHex ds p.toNat) := by
  by_cases h1 : p = InCBConsonant
  · subst h1; exact .inl ⟨.Consonant, by decide, by decide +kernel, by decide +kernel⟩
  by_cases h2 : p = InCBExtend
  · subst h2; exact .inl ⟨.Extend, by decide, by decide +kernel, by decide +kernel⟩
  by_cases h3 : p = InCBLinker
  · subst h3; exact .inl ⟨.Linker, by decide, by decide +kernel, by decide +kernel⟩
  right
  constructor
  · intro i hi
    cases i
    · exact absurd rfl hi
    · exact fun e => h1 (e.trans (by decide +kernel))
    · exact fun e => h2 (e.trans (by decide +kernel))
    · exact fun e => h3 (e.trans (by decide +kernel))
  · rw [inCBString, if_neg h1, if_neg h2, if_neg h3]
    exact hex_form p

/-- A byte that is no value. -/
example : gcbString 0xA7 = str "0xa7" ∧ inCBString 0x0F = str "0x0f" := by decide +kernel

/-- The bytes that stand for characters. -/
def validBytes : List CharProperties :=
  [GCBNone, GCBCR, GCBControl, GCBExtend, GCBExtendedPictographic, GCBL, GCBLF, GCBLV, GCBLVT, GCBPrepend,
    GCBRegionalIndicator, GCBSpacingMark, GCBT, GCBV, GCBZWJ].flatMap fun g =>
  [InCBNone, InCBConsonant, InCBExtend, InCBLinker].map fun i => MakeCharProperties g GCBNone i

/-- C29: the printed form of a packed byte identifies it, and it is not the printed form of the error marker. -/
theorem C29_printed_form_identifies (cp : CharProperties) (h : cp ∈ validBytes) :
    charPropertiesString cp ≠ charPropertiesString ErrorProps ∧
    ∀ cp' ∈ validBytes, charPropertiesString cp = charPropertiesString cp' → cp = cp' := by
  have key : ∀ cp ∈ validBytes, charPropertiesString cp ≠ charPropertiesString ErrorProps ∧
      ∀ cp' ∈ validBytes, charPropertiesString cp = charPropertiesString cp' → cp = cp' := by decide +kernel
  exact key cp h

/-- C29: what the printed form is. -/
theorem C29_printed_form (g i : UInt8) (hg : g < 16) (hi : i.toNat % 16 = 0) :
    charPropertiesString (MakeCharProperties g GCBNone i) =
      if g = GCBError ∧ i = InCBError then str "Error"
      else if i = InCBNone then gcbString g
      else if g = GCBNone then str "InCB=" ++ inCBString i
      else gcbString g ++ str "|InCB=" ++ inCBString i := by
  refine nibbles (P := fun g i => charPropertiesString (MakeCharProperties g GCBNone i) =
      if g = GCBError ∧ i = InCBError then str "Error"
      else if i = InCBNone then gcbString g
      else if g = GCBNone then str "InCB=" ++ inCBString i
      else gcbString g ++ str "|InCB=" ++ inCBString i) ?_ g i hg hi
  decide +kernel

example : charPropertiesString 0x33 = str "Extend|InCB=Linker" ∧ charPropertiesString 0x10 = str "InCB=Consonant" ∧
    LookupGCBProperty (str "Regional_Indicator") = GCBRegionalIndicator ∧ LookupGCBProperty (str "regional_indicator") = GCBNone := by
  decide +kernel

end Textseg.Props
