import Verif.Proofs.Tokens
import Verif.Proofs.Disjoint
import Verif.Spec.Names
/-!
# Properties of the character lookup (C14, C23, C24, C25)
-/

namespace Textseg.Props
open Spec

/-! ## C23 -/

/-- What the packed byte says about a character: the GCB part is the code of the name in GraphemeBreakProperty.txt, or of
`Extended_Pictographic`; the InCB part is the code of the name in DerivedCoreProperties.txt. -/
def Describes (props : CharProperties) (u : CharProps) : Prop :=
  gcbProperty props = (if u.extPict then LookupEmojiProperty (str "Extended_Pictographic")
    else LookupGCBProperty (str u.gcb.ucdName)) ∧
  inCBProperty props = LookupInCBProperty (str u.incb.ucdName)

theorem describes_pack {u : CharProps} (h : u.Consistent) : Describes (pack u) u := by
  obtain ⟨g, e, i⟩ := u
  cases e
  · cases g <;> cases i <;> (constructor <;> decide +kernel)
  · obtain ⟨h1, h2⟩ := h.pict rfl
    simp only at h1 h2
    subst h1 h2
    constructor <;> decide +kernel

/-- C23: for every Unicode scalar value, looking up its UTF-8 encoding followed by anything gives the length of the
encoding and exactly the property values of the data files. -/
theorem C23_lookup_agrees_with_data_files (c : Char) (rest : List UInt8) :
    ∃ props, LookupFirstChar (String.utf8EncodeChar c ++ rest) = .ok (props, (String.utf8EncodeChar c).length) ∧
      Describes props (ucd c.val.toNat) := by
  refine ⟨_, lookup_seq (isSeq_encode c) rest, ?_⟩
  rw [seqProps_encode]
  exact describes_pack (ucd_consistent _)

/-- C23: the data files determine the values: a listed code point has the value of any line that lists it, an unlisted
one has the default. (So it does not matter that `ucd` takes the first line.) -/
theorem C23_data_files_unambiguous (c : Nat) :
    (∀ lo hi v, (lo, hi, v) ∈ graphemeBreakProperty → lo ≤ c → c ≤ hi → (ucd c).gcb = v) ∧
    ((∀ lo hi v, (lo, hi, v) ∈ graphemeBreakProperty → ¬ (lo ≤ c ∧ c ≤ hi)) → (ucd c).gcb = .Other) ∧
    ((ucd c).extPict = true ↔ ∃ lo hi, (lo, hi, ()) ∈ extendedPictographic ∧ lo ≤ c ∧ c ≤ hi) ∧
    (∀ lo hi v, (lo, hi, v) ∈ indicConjunctBreak → lo ≤ c → c ≤ hi → (ucd c).incb = v) ∧
    ((∀ lo hi v, (lo, hi, v) ∈ indicConjunctBreak → ¬ (lo ≤ c ∧ c ≤ hi)) → (ucd c).incb = .None) := by
  refine ⟨?_, ?_, ?_, ?_, ?_⟩
  · intro lo hi v h h1 h2
    rw [ucd, lookupRange_of_mem gcb_disjoint h h1 h2]; rfl
  · intro h
    rw [ucd, lookupRange_none h]; rfl
  · show (lookupRange c extendedPictographic).isSome = true ↔ _
    exact lookupRange_isSome
  · intro lo hi v h h1 h2
    show (lookupRange c indicConjunctBreak).getD .None = v
    rw [lookupRange_of_mem incb_disjoint h h1 h2]; rfl
  · intro h
    show (lookupRange c indicConjunctBreak).getD .None = .None
    rw [lookupRange_none h]; rfl

/-- KA: Consonant; VIRAMA: Extend and Linker; woman: pictograph; "a": nothing. -/
example : ucd 0x915 = ⟨.Other, false, .Consonant⟩ ∧ ucd 0x94D = ⟨.Extend, false, .Linker⟩ ∧
    ucd 0x1F469 = ⟨.Other, true, .None⟩ ∧ ucd 0x61 = CharProps.none ∧
    LookupFirstChar [0xE0, 0xA5, 0x8D, 0x00] = .ok (0x33, 3) := by decide +kernel

/-! ## C24 -/

/-- C24: the lookup returns normally on every byte string, and the answer is one of three kinds:
* length 0 exactly if the string is empty or shorter than its first byte announces;
* the error marker, with length 1, exactly if the first byte announces nothing, or enough bytes are there but they do not
  begin with a sequence;
* otherwise the string begins with a sequence of 1 to 4 bytes, whose length is returned, and neither the length nor the
  properties depend on what follows. -/
theorem C24_lookup_total (p : List UInt8) :
    ∃ props n, LookupFirstChar p = .ok (props, n) ∧
      (n = 0 ↔ p = [] ∨ IsIncomplete p) ∧
      (props = ErrorProps ↔ p ≠ [] ∧ ¬ IsIncomplete p ∧ ¬ ∃ bs rest, IsSeq bs ∧ p = bs ++ rest) ∧
      (props = ErrorProps → n = 1) ∧
      (n ≠ 0 → props ≠ ErrorProps → n ≤ 4 ∧ IsSeq (p.take n) ∧
        ∀ q, LookupFirstChar (p.take n ++ q) = .ok (props, n)) := by
  by_cases hp : p = []
  · subst hp
    refine ⟨0, 0, rfl, by simp, ?_, ?_, by simp⟩
    · constructor
      · intro h; exact absurd h (by decide)
      · rintro ⟨h, -⟩; exact absurd rfl h
    · intro h; exact absurd h (by decide)
  rcases first_cases p hp with ⟨bs, rest, h1, rfl⟩ | ⟨b, t, n, rfl, h1, h2⟩ | ⟨b, t, rfl, h1⟩ | ⟨b, t, n, rfl, h1, h2, h3⟩
  · have hninc : ¬ IsIncomplete (bs ++ rest) := by
      rintro ⟨b, t, n, h2, h3, h4⟩
      rw [h2] at h4
      exact not_startsWithSeq_incomplete h3 h4 ⟨bs, rest, h1, h2.symm⟩
    have hne : pack (seqProps bs) ≠ ErrorProps := pack_ne_error (seqProps_consistent bs)
    refine ⟨_, _, lookup_seq h1 rest, ?_, ?_, ?_, ?_⟩
    · have := h1.length_pos
      constructor
      · intro h; omega
      · rintro (h | h)
        · exact absurd h hp
        · exact absurd h hninc
    · constructor
      · intro h; exact absurd h hne
      · rintro ⟨-, -, h⟩; exact absurd ⟨bs, rest, h1, rfl⟩ h
    · intro h; exact absurd h hne
    · intro _ _
      rw [List.take_left]
      exact ⟨h1.length_le, h1, fun q => lookup_seq h1 q⟩
  · have hinc : IsIncomplete (b :: t) := ⟨b, t, n, rfl, h1, h2⟩
    refine ⟨_, _, lookup_incomplete h1 h2, by simp [hinc], ?_, ?_, by simp⟩
    · constructor
      · intro h; exact absurd h (by decide)
      · rintro ⟨-, h, -⟩; exact absurd hinc h
    · intro h; exact absurd h (by decide)
  · have hninc : ¬ IsIncomplete (b :: t) := by
      rintro ⟨b', t', n, h2, h3, -⟩
      cases h2
      rw [h1] at h3; cases h3
    refine ⟨_, _, lookup_badFirst h1, by simp [hninc], ?_, by simp, by simp⟩
    simp only [ne_eq, true_iff]
    exact ⟨hp, hninc, not_startsWithSeq_badFirst h1⟩
  · have hninc : ¬ IsIncomplete (b :: t) := by
      rintro ⟨b', t', n', h5, h6, h7⟩
      cases h5
      rw [h1] at h6; cases h6
      simp only [List.length_cons] at h7
      omega
    refine ⟨_, _, lookup_badCont h1 h2 h3, by simp [hninc], ?_, by simp, by simp⟩
    simp only [ne_eq, true_iff]
    exact ⟨hp, hninc, not_startsWithSeq_badCont h1 h3⟩

/-- C24: the answer depends on the first four bytes only. -/
theorem C24_looks_at_four_bytes (p : List UInt8) : LookupFirstChar p = LookupFirstChar (p.take 4) := by
  by_cases hp : p = []
  · subst hp; rfl
  rcases first_cases p hp with ⟨bs, rest, h1, rfl⟩ | ⟨b, t, n, rfl, h1, h2⟩ | ⟨b, t, rfl, h1⟩ | ⟨b, t, n, rfl, h1, h2, h3⟩
  · rw [lookup_seq h1, List.take_append, List.take_of_length_le h1.length_le, lookup_seq h1]
  · have : n ≤ 4 := announced_le h1
    rw [List.take_of_length_le (by simp only [List.length_cons]; omega)]
  · rw [List.take_succ_cons, lookup_badFirst h1, lookup_badFirst h1]
  · have : n ≤ 4 := announced_le h1
    rw [List.take_succ_cons, lookup_badCont h1 h2 h3, lookup_badCont h1 (by rw [List.length_take]; omega)]
    obtain ⟨c, h4, h5⟩ := h3
    refine ⟨c, ?_, h5⟩
    rw [List.take_take, Nat.min_eq_left (by omega)]
    exact h4

/-- All three kinds of answer occur. -/
example : LookupFirstChar [0xC3, 0xA9, 0xFF] = .ok (0, 2) ∧ LookupFirstChar [0xF0, 0x9F] = .ok (0, 0) ∧
    LookupFirstChar [0x80] = .ok (ErrorProps, 1) ∧ LookupFirstChar [0xE2, 0x82, 0x41] = .ok (ErrorProps, 1) := by
  decide +kernel

/-! ## C25 -/

/-- C25: a structurally well-formed sequence that is not the encoding of a scalar value is one character, and it has no
property whatever: no control, no newline, no combining mark, no pictograph, no Indic property. -/
theorem C25_ill_formed_sequences_have_no_property (bs rest : List UInt8) (hs : IsSeq bs)
    (hn : ∀ c : Char, String.utf8EncodeChar c ≠ bs) :
    LookupFirstChar (bs ++ rest) = .ok (0, bs.length) ∧ gcbProperty 0 = GCBNone ∧ inCBProperty 0 = InCBNone := by
  refine ⟨?_, by decide, by decide⟩
  rw [lookup_seq hs, seqProps_none hn]; rfl

/-- C25: the sequences concerned are exactly those that decode to a value in overlong form, to a surrogate or to a value
above U+10FFFF. -/
theorem C25_which_sequences (bs : List UInt8) (hs : IsSeq bs) :
    (∀ c : Char, String.utf8EncodeChar c ≠ bs) ↔
      (bs.length = 2 ∧ decoded bs < 0x80) ∨ (bs.length = 3 ∧ decoded bs < 0x800) ∨
      (bs.length = 4 ∧ decoded bs < 0x10000) ∨ (0xD800 ≤ decoded bs ∧ decoded bs ≤ 0xDFFF) ∨ 0x10FFFF < decoded bs := by
  constructor
  · intro h
    apply Decidable.byContradiction
    intro hn
    obtain ⟨c, hc⟩ := encode_decoded hs hn
    exact h c hc
  · rintro h c rfl
    exact decoded_encode c h

/-- NUL in overlong form, a surrogate, a value above U+10FFFF. -/
example : IsSeq [0xC0, 0x80] ∧ decoded [0xC0, 0x80] = 0 ∧ IsSeq [0xED, 0xA0, 0x80] ∧ decoded [0xED, 0xA0, 0x80] = 0xD800 ∧
    IsSeq [0xF7, 0xBF, 0xBF, 0xBF] ∧ decoded [0xF7, 0xBF, 0xBF, 0xBF] = 0x1FFFFF := by
  refine ⟨.two _ _ (by decide) (by decide) (by decide), by decide, .three _ _ _ (by decide) (by decide) (by decide) (by decide),
    by decide, .four _ _ _ _ (by decide) (by decide) (by decide) (by decide) (by decide), by decide⟩

/-! ## C14 -/

/-- C14 is false of the code: `E0 41` cannot be extended to anything that begins with a well-formed sequence, but the
lookup asks for more data (length 0) instead of reporting an error of length 1. -/
theorem C14_not_prompt : ∃ p : List UInt8, p ≠ [] ∧ (¬ ∃ more bs rest, IsSeq bs ∧ p ++ more = bs ++ rest) ∧
    LookupFirstChar p = .ok (0, 0) := by
  refine ⟨[0xE0, 0x41], by simp, ?_, by decide +kernel⟩
  rintro ⟨more, bs, rest, h1, h2⟩
  exact not_startsWithSeq_badCont (b := 0xE0) (t := 0x41 :: more) (n := 3) (by decide)
    ⟨0x41, by simp, by decide⟩ ⟨bs, rest, h1, h2⟩

/-- C14, the part that holds. The full claim is: for every non-empty `p` which no `more` extends to something that begins
with a sequence, the answer is (Error, 1). It holds if the first byte cannot start a sequence, or as soon as all the bytes
announced by the first byte are there. (Missing: a wrong continuation byte is not noticed before that; `C14_not_prompt`.) -/
theorem C14_error_is_reported_partial (p : List UInt8) (hp : p ≠ [])
    (hbad : ¬ ∃ more bs rest, IsSeq bs ∧ p ++ more = bs ++ rest) (hc : ¬ IsIncomplete p) :
    LookupFirstChar p = .ok (ErrorProps, 1) := by
  rcases first_cases p hp with ⟨bs, rest, h1, rfl⟩ | ⟨b, t, n, rfl, h1, h2⟩ | ⟨b, t, rfl, h1⟩ | ⟨b, t, n, rfl, h1, h2, h3⟩
  · exact absurd ⟨[], bs, rest, h1, by simp⟩ hbad
  · exact absurd ⟨b, t, n, rfl, h1, h2⟩ hc
  · exact lookup_badFirst h1
  · exact lookup_badCont h1 h2 h3

/-- C14: the delay is bounded: two more bytes, whatever they are, suffice for the error to be reported. -/
theorem C14_error_after_two_more_bytes (p : List UInt8) (hp : p ≠ [])
    (hbad : ¬ ∃ more bs rest, IsSeq bs ∧ p ++ more = bs ++ rest) (more : List UInt8) (hm : 2 ≤ more.length) :
    LookupFirstChar (p ++ more) = .ok (ErrorProps, 1) := by
  refine C14_error_is_reported_partial (p ++ more) (by simp [hp]) ?_ ?_
  · rintro ⟨more', bs, rest, h1, h2⟩
    exact hbad ⟨more ++ more', bs, rest, h1, by rw [← h2, List.append_assoc]⟩
  · rintro ⟨b, t, n, h1, h2, h3⟩
    match p, hp with
    | [b'], _ =>
      -- a single byte that announces something can be extended
      cases h1
      have h4 := announced_pos h2
      refine hbad ⟨List.replicate (n - 1) 0x80, b :: List.replicate (n - 1) 0x80, [], (isSeq_cons_iff _ _).mpr ⟨?_, ?_⟩, by simp⟩
      · rw [h2, List.length_replicate]; congr 1; omega
      · intro c hc
        rw [List.mem_replicate] at hc
        rw [hc.2]; decide
    | b' :: c' :: p', _ =>
      have h5 : n ≤ 4 := announced_le h2
      simp only [List.length_append, List.length_cons] at h3
      omega

/-- The hypotheses of the partial theorem hold: a wrong second byte with a third one present. -/
example : LookupFirstChar [0xE0, 0x41, 0x42] = .ok (ErrorProps, 1) ∧ ¬ IsIncomplete [0xE0, 0x41, 0x42] ∧
    ¬ ∃ more bs rest, IsSeq bs ∧ [0xE0, 0x41, 0x42] ++ more = bs ++ rest := by
  refine ⟨by decide +kernel, ?_, ?_⟩
  · rintro ⟨b, t, n, h1, h2, h3⟩
    cases h1
    have : announced 0xE0 = some 3 := by decide
    rw [this] at h2; cases h2
    simp at h3
  · rintro ⟨more, bs, rest, h1, h2⟩
    exact not_startsWithSeq_badCont (b := 0xE0) (t := 0x41 :: 0x42 :: more) (n := 3) (by decide)
      ⟨0x41, by simp, by decide⟩ ⟨bs, rest, h1, h2⟩

end Textseg.Props
