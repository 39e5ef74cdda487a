import Verif.Model.DecodeRune
import Verif.Spec.Runes
import Verif.Spec.UCDFormat
import Verif.Proofs.Disjoint
import Verif.Proofs.Local
/-!
# `utf8.DecodeRune`
-/

namespace Textseg
open Spec

/-- A sequence that encodes a character. -/
def Shortest (bs : List UInt8) : Prop :=
  ¬ ((bs.length = 2 ∧ decoded bs < 0x80) ∨ (bs.length = 3 ∧ decoded bs < 0x800) ∨
      (bs.length = 4 ∧ decoded bs < 0x10000) ∨ (0xD800 ≤ decoded bs ∧ decoded bs ≤ 0xDFFF) ∨ 0x10FFFF < decoded bs)

theorem decoded_char (c : Char) : decoded (String.utf8EncodeChar c) = c.val.toNat := by
  have hc : c.val.toNat.isValidChar := char_valid c
  unfold Nat.isValidChar at hc
  simp only [String.utf8EncodeChar]
  generalize c.val.toNat = v at *
  split
  · simp only [decoded, UInt8.toNat_ofNat', Nat.reducePow]; omega
  · split
    · simp only [decoded, UInt8.toNat_ofNat', Nat.reducePow]; omega
    · split
      · simp only [decoded, UInt8.toNat_ofNat', Nat.reducePow]; omega
      · simp only [decoded, UInt8.toNat_ofNat', Nat.reducePow]; omega

theorem and_1F (b : UInt8) : (b &&& 0x1F).toNat = b.toNat % 32 := by
  revert b; apply forall_u8; decide +kernel
theorem and_0F (b : UInt8) : (b &&& 0x0F).toNat = b.toNat % 16 := by
  revert b; apply forall_u8; decide +kernel
theorem and_07 (b : UInt8) : (b &&& 0x07).toNat = b.toNat % 8 := by
  revert b; apply forall_u8; decide +kernel
theorem and_3F (b : UInt8) : (b &&& 0x3F).toNat = b.toNat % 64 := by
  revert b; apply forall_u8; decide +kernel

theorem or6 (a b : Nat) (h : b < 64) : (a <<< 6) ||| b = a * 64 + b := by
  rw [← Nat.shiftLeft_add_eq_or_of_lt (by omega), Nat.shiftLeft_eq]
theorem or12 (a b : Nat) (h : b < 4096) : (a <<< 12) ||| b = a * 4096 + b := by
  rw [← Nat.shiftLeft_add_eq_or_of_lt (by omega), Nat.shiftLeft_eq]
theorem or18 (a b : Nat) (h : b < 262144) : (a <<< 18) ||| b = a * 262144 + b := by
  rw [← Nat.shiftLeft_add_eq_or_of_lt (by omega), Nat.shiftLeft_eq]

theorem bits2 (b c : UInt8) : ((b &&& 0x1F).toNat <<< 6) ||| (c &&& 0x3F).toNat = decoded [b, c] := by
  rw [and_1F, and_3F, or6 _ _ (by omega)]; rfl

theorem bits3 (b c d : UInt8) : ((b &&& 0x0F).toNat <<< 12) ||| ((c &&& 0x3F).toNat <<< 6) ||| (d &&& 0x3F).toNat = decoded [b, c, d] := by
  rw [and_0F, and_3F, and_3F, Nat.or_assoc, or6 _ _ (by omega), or12 _ _ (by omega)]
  simp only [decoded]; omega

theorem bits4 (b c d e : UInt8) : ((b &&& 0x07).toNat <<< 18) ||| ((c &&& 0x3F).toNat <<< 12) ||| ((d &&& 0x3F).toNat <<< 6) |||
    (e &&& 0x3F).toNat = decoded [b, c, d, e] := by
  rw [and_07, and_3F, and_3F, and_3F, Nat.or_assoc, Nat.or_assoc, or6 _ _ (by omega), or12 _ _ (by omega), or18 _ _ (by omega)]
  simp only [decoded]; omega

theorem decodeFirst_cases (b : UInt8) : (decodeFirst b = none ∧ (b.toNat < 0xC2 ∨ 0xF5 ≤ b.toNat)) ∨
    (decodeFirst b = some (2, 0x80, 0xBF) ∧ 0xC2 ≤ b.toNat ∧ b.toNat ≤ 0xDF) ∨
    (decodeFirst b = some (3, 0xA0, 0xBF) ∧ b.toNat = 0xE0) ∨
    (decodeFirst b = some (3, 0x80, 0x9F) ∧ b.toNat = 0xED) ∨
    (decodeFirst b = some (3, 0x80, 0xBF) ∧ 0xE1 ≤ b.toNat ∧ b.toNat ≤ 0xEF ∧ b.toNat ≠ 0xED) ∨
    (decodeFirst b = some (4, 0x90, 0xBF) ∧ b.toNat = 0xF0) ∨
    (decodeFirst b = some (4, 0x80, 0xBF) ∧ 0xF1 ≤ b.toNat ∧ b.toNat ≤ 0xF3) ∨
    (decodeFirst b = some (4, 0x80, 0x8F) ∧ b.toNat = 0xF4) := by
  have hlt := b.toNat_lt
  have e : ∀ x : UInt8, b = x ↔ b.toNat = x.toNat := fun x => UInt8.toNat_inj.symm
  unfold decodeFirst
  simp only [UInt8.lt_iff_toNat_lt, UInt8.le_iff_toNat_le, e, UInt8.reduceToNat]
  split
  · left; exact ⟨rfl, by omega⟩
  · split
    · right; left; exact ⟨rfl, by omega⟩
    · split
      · right; right; left; exact ⟨rfl, by omega⟩
      · split
        · right; right; right; left; exact ⟨rfl, by omega⟩
        · split
          · right; right; right; right; left; exact ⟨rfl, by omega⟩
          · split
            · right; right; right; right; right; left; exact ⟨rfl, by omega⟩
            · split
              · right; right; right; right; right; right; left; exact ⟨rfl, by omega⟩
              · split
                · right; right; right; right; right; right; right; exact ⟨rfl, by omega⟩
                · left; exact ⟨rfl, by omega⟩

/-- The branches of `DecodeRune`. -/
theorem decode_two {p0 lo hi b1 : UInt8} {rest : List UInt8} (h : ¬ p0 < 0x80) (hf : decodeFirst p0 = some (2, lo, hi)) :
    DecodeRune (p0 :: b1 :: rest) = if b1 < lo || hi < b1 then (RuneError, 1) else (decoded [p0, b1], 2) := by
  simp only [DecodeRune, if_neg h, hf, List.length_cons]
  rw [if_neg (by omega)]
  simp only [List.getD_cons_zero, bits2]
  rfl

theorem decode_three {p0 lo hi b1 b2 : UInt8} {rest : List UInt8} (h : ¬ p0 < 0x80) (hf : decodeFirst p0 = some (3, lo, hi)) :
    DecodeRune (p0 :: b1 :: b2 :: rest) = if b1 < lo || hi < b1 then (RuneError, 1)
      else if b2 < 0x80 || 0xBF < b2 then (RuneError, 1) else (decoded [p0, b1, b2], 3) := by
  simp only [DecodeRune, if_neg h, hf, List.length_cons]
  rw [if_neg (by omega)]
  simp only [List.getD_cons_zero, List.getD_cons_succ, bits3]
  rfl

theorem decode_four {p0 lo hi b1 b2 b3 : UInt8} {rest : List UInt8} (h : ¬ p0 < 0x80) (hf : decodeFirst p0 = some (4, lo, hi)) :
    DecodeRune (p0 :: b1 :: b2 :: b3 :: rest) = if b1 < lo || hi < b1 then (RuneError, 1)
      else if b2 < 0x80 || 0xBF < b2 then (RuneError, 1)
      else if b3 < 0x80 || 0xBF < b3 then (RuneError, 1) else (decoded [p0, b1, b2, b3], 4) := by
  simp only [DecodeRune, if_neg h, hf, List.length_cons]
  rw [if_neg (by omega)]
  simp only [List.getD_cons_zero, List.getD_cons_succ, bits4]
  rfl

theorem decode_short {p0 lo hi : UInt8} {sz : Nat} {rest : List UInt8} (h : ¬ p0 < 0x80) (hf : decodeFirst p0 = some (sz, lo, hi))
    (hl : rest.length + 1 < sz) : DecodeRune (p0 :: rest) = (RuneError, 1) := by
  simp only [DecodeRune, if_neg h, hf, List.length_cons]
  rw [if_pos hl]

theorem decode_none {p0 : UInt8} {rest : List UInt8} (h : ¬ p0 < 0x80) (hf : decodeFirst p0 = none) :
    DecodeRune (p0 :: rest) = (RuneError, 1) := by
  simp only [DecodeRune, if_neg h, hf]

theorem u8_lt {a b : UInt8} : a < b ↔ a.toNat < b.toNat := Iff.rfl

theorem out_iff (b lo hi : UInt8) : ((decide (b < lo) || decide (hi < b)) = true) ↔ (b.toNat < lo.toNat ∨ hi.toNat < b.toNat) := by
  simp [u8_lt]

theorem decodeRune_seq {bs : List UInt8} (hs : IsSeq bs) (rest : List UInt8) (hg : Shortest bs) :
    DecodeRune (bs ++ rest) = (decoded bs, bs.length) := by
  cases hs with
  | one b hb =>
    have hb' : b < 0x80 := by have : b.toNat ≤ 127 := hb; show b.toNat < 128; omega
    simp only [List.cons_append, DecodeRune, if_pos hb']
    rfl
  | two b c h1 h2 h3 =>
    have b1 : 0xC0 ≤ b.toNat := h1
    have b2 : b.toNat ≤ 0xDF := h2
    have c1 : 0x80 ≤ c.toNat := h3.1
    have c2 : c.toNat ≤ 0xBF := h3.2
    have l1 : ¬ decoded [b, c] < 0x80 := fun x => hg (Or.inl ⟨rfl, x⟩)
    have l2 : ¬ (0xD800 ≤ decoded [b, c] ∧ decoded [b, c] ≤ 0xDFFF) := fun x => hg (Or.inr (Or.inr (Or.inr (Or.inl x))))
    have l3 : ¬ 0x10FFFF < decoded [b, c] := fun x => hg (Or.inr (Or.inr (Or.inr (Or.inr x))))
    clear hg
    simp only [decoded] at l1 l2 l3
    have nb : ¬ b < 0x80 := by rw [u8_lt]; simp; omega
    rcases decodeFirst_cases b with h | h | h | h | h | h | h | h
    all_goals try (exfalso; omega)
    simp only [List.cons_append, List.nil_append]
    rw [decode_two nb h.1, if_neg]
    · rfl
    · rw [out_iff]; simp only [UInt8.reduceToNat]; omega
  | three b c d h1 h2 h3 h4 =>
    have b1 : 0xE0 ≤ b.toNat := h1
    have b2 : b.toNat ≤ 0xEF := h2
    have c1 : 0x80 ≤ c.toNat := h3.1
    have c2 : c.toNat ≤ 0xBF := h3.2
    have d1 : 0x80 ≤ d.toNat := h4.1
    have d2 : d.toNat ≤ 0xBF := h4.2
    have l1 : ¬ decoded [b, c, d] < 0x800 := fun x => hg (Or.inr (Or.inl ⟨rfl, x⟩))
    have l2 : ¬ (0xD800 ≤ decoded [b, c, d] ∧ decoded [b, c, d] ≤ 0xDFFF) := fun x => hg (Or.inr (Or.inr (Or.inr (Or.inl x))))
    have l3 : ¬ 0x10FFFF < decoded [b, c, d] := fun x => hg (Or.inr (Or.inr (Or.inr (Or.inr x))))
    clear hg
    simp only [decoded] at l1 l2 l3
    have nb : ¬ b < 0x80 := by rw [u8_lt]; simp; omega
    rcases decodeFirst_cases b with h | h | h | h | h | h | h | h
    all_goals try (exfalso; omega)
    all_goals
      simp only [List.cons_append, List.nil_append]
      rw [decode_three nb h.1, if_neg, if_neg]
      · rfl
      · rw [out_iff]; simp only [UInt8.reduceToNat]; omega
      · rw [out_iff]; simp only [UInt8.reduceToNat]; omega
  | four b c d e h1 h2 h3 h4 h5 =>
    have b1 : 0xF0 ≤ b.toNat := h1
    have b2 : b.toNat ≤ 0xF7 := h2
    have c1 : 0x80 ≤ c.toNat := h3.1
    have c2 : c.toNat ≤ 0xBF := h3.2
    have d1 : 0x80 ≤ d.toNat := h4.1
    have d2 : d.toNat ≤ 0xBF := h4.2
    have e1 : 0x80 ≤ e.toNat := h5.1
    have e2 : e.toNat ≤ 0xBF := h5.2
    have l1 : ¬ decoded [b, c, d, e] < 0x10000 := fun x => hg (Or.inr (Or.inr (Or.inl ⟨rfl, x⟩)))
    have l2 : ¬ (0xD800 ≤ decoded [b, c, d, e] ∧ decoded [b, c, d, e] ≤ 0xDFFF) := fun x => hg (Or.inr (Or.inr (Or.inr (Or.inl x))))
    have l3 : ¬ 0x10FFFF < decoded [b, c, d, e] := fun x => hg (Or.inr (Or.inr (Or.inr (Or.inr x))))
    clear hg
    simp only [decoded] at l1 l2 l3
    have nb : ¬ b < 0x80 := by rw [u8_lt]; simp; omega
    rcases decodeFirst_cases b with h | h | h | h | h | h | h | h
    all_goals try (exfalso; omega)
    all_goals
      simp only [List.cons_append, List.nil_append]
      rw [decode_four nb h.1, if_neg, if_neg, if_neg]
      · rfl
      · rw [out_iff]; simp only [UInt8.reduceToNat]; omega
      · rw [out_iff]; simp only [UInt8.reduceToNat]; omega
      · rw [out_iff]; simp only [UInt8.reduceToNat]; omega

theorem decodeRune_char (c : Char) (rest : List UInt8) :
    DecodeRune (utf8 [c] ++ rest) = (c.val.toNat, (utf8 [c]).length) := by
  have e : utf8 [c] = String.utf8EncodeChar c := by simp [utf8]
  rw [e, decodeRune_seq (isSeq_encode c) rest (decoded_encode c), decoded_char]

theorem cont_of {b : UInt8} (h : ¬ (b.toNat < 0x80 ∨ 0xBF < b.toNat)) : IsCont b :=
  ⟨show 128 ≤ b.toNat by omega, show b.toNat ≤ 191 by omega⟩

theorem seq_char {bs : List UInt8} (hs : IsSeq bs) (hg : Shortest bs) : ∃ c : Char, bs = utf8 [c] := by
  obtain ⟨c, hc⟩ := encode_decoded hs hg
  exact ⟨c, by simp [utf8, hc]⟩

theorem decodeRune_bad (b : UInt8) (rest : List UInt8) (h : ¬ ∃ c rest', b :: rest = utf8 [c] ++ rest') :
    DecodeRune (b :: rest) = (RuneError, 1) := by
  have key : ∀ bs rest', b :: rest = bs ++ rest' → IsSeq bs → Shortest bs → False := fun bs rest' h1 h2 h3 => by
    obtain ⟨c, rfl⟩ := seq_char h2 h3
    exact h ⟨c, rest', h1⟩
  by_cases nb : b < 0x80
  · refine absurd (key [b] rest rfl (.one b ?_) ?_) id
    · show b.toNat ≤ 127
      have : b.toNat < 128 := nb
      omega
    · have : b.toNat < 128 := nb
      simp only [Shortest, decoded, List.length_cons, List.length_nil]; omega
  rcases decodeFirst_cases b with h1 | h1 | h1
  · exact decode_none nb h1.1
  · match rest, h, key with
    | [], h, key => exact decode_short nb h1.1 (by simp)
    | b1 :: rest, h, key =>
      rw [decode_two nb h1.1]
      by_cases h2 : (decide (b1 < 0x80) || decide (0xBF < b1)) = true
      · rw [if_pos h2]
      · rw [out_iff] at h2
        simp only [UInt8.reduceToNat] at h2
        refine absurd (key [b, b1] rest rfl (.two b b1 ?_ ?_ (cont_of h2)) ?_) id
        · show 192 ≤ b.toNat; omega
        · show b.toNat ≤ 223; omega
        · simp only [Shortest, decoded, List.length_cons, List.length_nil]; omega
  · have three : ∀ lo hi : UInt8, decodeFirst b = some (3, lo, hi) → 0xE0 ≤ b.toNat → b.toNat ≤ 0xEF →
        (∀ b1 b2 : UInt8, lo.toNat ≤ b1.toNat → b1.toNat ≤ hi.toNat → ¬ (b2.toNat < 0x80 ∨ 0xBF < b2.toNat) →
          ¬ (b1.toNat < 0x80 ∨ 0xBF < b1.toNat) ∧ Shortest [b, b1, b2]) →
        DecodeRune (b :: rest) = (RuneError, 1) := by
      intro lo hi hf l1 l2 hc
      match rest, h, key with
      | [], h, key => exact decode_short nb hf (by simp)
      | [b1], h, key => exact decode_short nb hf (by simp)
      | b1 :: b2 :: rest, h, key =>
        rw [decode_three nb hf]
        by_cases h2 : (decide (b1 < lo) || decide (hi < b1)) = true
        · rw [if_pos h2]
        · rw [if_neg h2]
          rw [out_iff] at h2
          by_cases h3 : (decide (b2 < 0x80) || decide (0xBF < b2)) = true
          · rw [if_pos h3]
          · rw [out_iff] at h3
            simp only [UInt8.reduceToNat] at h3
            obtain ⟨h4, h5⟩ := hc b1 b2 (by omega) (by omega) h3
            exact absurd (key [b, b1, b2] rest rfl (.three b b1 b2 l1 l2 (cont_of h4) (cont_of h3)) h5) id
    have four : ∀ lo hi : UInt8, decodeFirst b = some (4, lo, hi) → 0xF0 ≤ b.toNat → b.toNat ≤ 0xF7 →
        (∀ b1 b2 b3 : UInt8, lo.toNat ≤ b1.toNat → b1.toNat ≤ hi.toNat → ¬ (b2.toNat < 0x80 ∨ 0xBF < b2.toNat) →
          ¬ (b3.toNat < 0x80 ∨ 0xBF < b3.toNat) →
          ¬ (b1.toNat < 0x80 ∨ 0xBF < b1.toNat) ∧ Shortest [b, b1, b2, b3]) →
        DecodeRune (b :: rest) = (RuneError, 1) := by
      intro lo hi hf l1 l2 hc
      match rest, h, key with
      | [], h, key => exact decode_short nb hf (by simp)
      | [b1], h, key => exact decode_short nb hf (by simp)
      | [b1, b2], h, key => exact decode_short nb hf (by simp)
      | b1 :: b2 :: b3 :: rest, h, key =>
        rw [decode_four nb hf]
        by_cases h2 : (decide (b1 < lo) || decide (hi < b1)) = true
        · rw [if_pos h2]
        · rw [if_neg h2]
          rw [out_iff] at h2
          by_cases h3 : (decide (b2 < 0x80) || decide (0xBF < b2)) = true
          · rw [if_pos h3]
          · rw [if_neg h3]
            rw [out_iff] at h3
            simp only [UInt8.reduceToNat] at h3
            by_cases h6 : (decide (b3 < 0x80) || decide (0xBF < b3)) = true
            · rw [if_pos h6]
            · rw [out_iff] at h6
              simp only [UInt8.reduceToNat] at h6
              obtain ⟨h4, h5⟩ := hc b1 b2 b3 (by omega) (by omega) h3 h6
              exact absurd (key [b, b1, b2, b3] rest rfl (.four b b1 b2 b3 l1 l2 (cont_of h4) (cont_of h3) (cont_of h6)) h5) id
    rcases h1 with h1 | h1 | h1 | h1 | h1 | h1
    · refine three _ _ h1.1 (by omega) (by omega) fun b1 b2 => ?_
      simp only [UInt8.reduceToNat, Shortest, decoded, List.length_cons, List.length_nil]; omega
    · refine three _ _ h1.1 (by omega) (by omega) fun b1 b2 => ?_
      simp only [UInt8.reduceToNat, Shortest, decoded, List.length_cons, List.length_nil]; omega
    · refine three _ _ h1.1 (by omega) (by omega) fun b1 b2 => ?_
      simp only [UInt8.reduceToNat, Shortest, decoded, List.length_cons, List.length_nil]; omega
    · refine four _ _ h1.1 (by omega) (by omega) fun b1 b2 b3 => ?_
      simp only [UInt8.reduceToNat, Shortest, decoded, List.length_cons, List.length_nil]; omega
    · refine four _ _ h1.1 (by omega) (by omega) fun b1 b2 b3 => ?_
      simp only [UInt8.reduceToNat, Shortest, decoded, List.length_cons, List.length_nil]; omega
    · refine four _ _ h1.1 (by omega) (by omega) fun b1 b2 b3 => ?_
      simp only [UInt8.reduceToNat, Shortest, decoded, List.length_cons, List.length_nil]; omega

/-! ## The characters of a byte string -/

/-- There is no character at the front. -/
abbrev NoChar (data : List UInt8) : Prop := ¬ ∃ c rest', data = utf8 [c] ++ rest'

theorem utf8_one (c : Char) : utf8 [c] = String.utf8EncodeChar c := by simp [utf8]

theorem utf8_one_ne (c : Char) : utf8 [c] ≠ [] := by
  rw [utf8_one]; exact (isSeq_encode c).ne_nil

theorem goChars_total (data : List UInt8) : ∃ rs, GoChars data rs := by
  induction h : data.length using Nat.strongRecOn generalizing data with
  | ind n ih =>
    match data with
    | [] => exact ⟨[], .nil⟩
    | b :: t =>
      by_cases hs : ∃ c rest', b :: t = utf8 [c] ++ rest'
      · obtain ⟨c, rest, h2⟩ := hs
        have hp := List.length_pos_iff.mpr (utf8_one_ne c)
        obtain ⟨rs, hrs⟩ := ih rest.length (by rw [← h, h2, List.length_append]; omega) rest rfl
        exact ⟨_, h2 ▸ GoChars.char c rest rs hrs⟩
      · obtain ⟨rs, hrs⟩ := ih t.length (by rw [← h, List.length_cons]; omega) t rfl
        exact ⟨_, .bad b t rs hs hrs⟩

theorem goChars_bytes {data : List UInt8} {rs : List (Char × List UInt8)} (h : GoChars data rs) : (rs.map Prod.snd).flatten = data := by
  induction h with
  | nil => rfl
  | char c rest rs h ih => simp [ih]
  | bad b rest rs h1 h2 ih => simp [ih]

theorem goChars_unique {data : List UInt8} {rs rs' : List (Char × List UInt8)} (h : GoChars data rs) (h' : GoChars data rs') : rs = rs' := by
  induction h generalizing rs' with
  | nil =>
    generalize hd : ([] : List UInt8) = data at h'
    cases h' with
    | nil => rfl
    | char c rest rs h2 =>
      simp only [List.nil_eq, List.append_eq_nil_iff] at hd
      exact absurd hd.1 (utf8_one_ne c)
    | bad => cases hd
  | char c rest rs h2 ih =>
    generalize hd : utf8 [c] ++ rest = data at h'
    cases h' with
    | nil => exact absurd (List.append_eq_nil_iff.mp hd).1 (utf8_one_ne c)
    | char c' rest' rs' h2' =>
      rw [utf8_one, utf8_one] at hd
      obtain ⟨h3, rfl⟩ := (isSeq_encode c).unique (isSeq_encode c') hd
      obtain rfl := encode_injective h3
      rw [ih h2']
    | bad b rest' ps' h1' h2' => exact absurd ⟨c, rest, hd.symm⟩ h1'
  | bad b rest rs h1 h2 ih =>
    generalize hd : b :: rest = data at h'
    cases h' with
    | nil => cases hd
    | char c' rest' ps' h2' => exact absurd ⟨c', rest', hd⟩ h1
    | bad b' rest' ps' h1' h2' => cases hd; rw [ih h2']

theorem runesLoop_eq {data : List UInt8} {rs : List (Char × List UInt8)} (h : GoChars data rs) :
    ∀ fuel, data.length < fuel → runesLoop fuel data = .ok (rs.map fun x => (x.1.val.toNat, x.2.length)) := by
  induction h with
  | nil => intro fuel hf; match fuel, hf with | fuel + 1, _ => rfl
  | char c rest rs h ih =>
    intro fuel hf
    match fuel, hf with
    | fuel + 1, hf =>
      have hp := List.length_pos_iff.mpr (utf8_one_ne c)
      rw [List.length_append] at hf
      rw [runesLoop, if_neg (by rw [List.length_append]; omega)]
      simp only [decodeRune_char, goSliceFrom, List.length_append]
      rw [if_pos (by omega)]
      simp only [List.drop_left, bind, Except.bind]
      rw [ih fuel (by omega)]
      rfl
  | bad b rest rs h1 h ih =>
    intro fuel hf
    match fuel, hf with
    | fuel + 1, hf =>
      rw [List.length_cons] at hf
      rw [runesLoop, if_neg (by rw [List.length_cons]; omega)]
      simp only [decodeRune_bad b rest h1, goSliceFrom, List.length_cons]
      rw [if_pos (by omega)]
      simp only [List.drop_succ_cons, List.drop_zero, bind, Except.bind]
      rw [ih fuel (by omega)]
      rfl

theorem runes_eq {data : List UInt8} {rs : List (Char × List UInt8)} (h : GoChars data rs) :
    runes data = .ok (rs.map fun x => (x.1.val.toNat, x.2.length)) := runesLoop_eq h _ (by omega)

theorem goChars_utf8 (cs : List Char) : GoChars (utf8 cs) (cs.map fun c => (c, utf8 [c])) := by
  induction cs with
  | nil => exact .nil
  | cons c cs ih =>
    have := GoChars.char c _ _ ih
    rwa [show utf8 [c] ++ utf8 cs = utf8 (c :: cs) by simp [utf8]] at this

/-! ## Pieces -/

theorem noChar_cont {b : UInt8} (h : IsCont b) (rest : List UInt8) : NoChar (b :: rest) := by
  rintro ⟨c, rest', h1⟩
  rw [utf8_one] at h1
  have h2 := isSeq_encode c
  generalize String.utf8EncodeChar c = bs at h1 h2
  have c1 : 0x80 ≤ b.toNat := h.1
  have c2 : b.toNat ≤ 0xBF := h.2
  cases h2 with
  | one b' hb =>
    simp only [List.cons_append, List.cons.injEq] at h1
    have : b'.toNat ≤ 0x7F := hb
    rw [← h1.1] at this; omega
  | two b' c h3 =>
    simp only [List.cons_append, List.cons.injEq] at h1
    have : 0xC0 ≤ b'.toNat := h3
    rw [← h1.1] at this; omega
  | three b' c d h3 =>
    simp only [List.cons_append, List.cons.injEq] at h1
    have : 0xE0 ≤ b'.toNat := h3
    rw [← h1.1] at this; omega
  | four b' c d e h3 =>
    simp only [List.cons_append, List.cons.injEq] at h1
    have : 0xF0 ≤ b'.toNat := h3
    rw [← h1.1] at this; omega

/-- The bytes one by one. -/
def badBytes (bs : List UInt8) : List (Char × List UInt8) := bs.map fun b => ('\uFFFD', [b])

theorem goChars_conts (conts : List UInt8) (hc : ∀ b ∈ conts, IsCont b) (rest : List UInt8) (rs : List (Char × List UInt8))
    (h : GoChars rest rs) : GoChars (conts ++ rest) (badBytes conts ++ rs) := by
  induction conts with
  | nil => exact h
  | cons b conts ih =>
    exact .bad b _ _ (noChar_cont (hc b (by simp)) _) (ih fun x hx => hc x (List.mem_cons_of_mem _ hx))

theorem isSeq_shape {bs : List UInt8} (h : IsSeq bs) : ∃ b conts, bs = b :: conts ∧ ∀ x ∈ conts, IsCont x := by
  cases h with
  | one b _ => exact ⟨b, [], rfl, by simp⟩
  | two b c _ _ h3 => exact ⟨b, [c], rfl, by simp [h3]⟩
  | three b c d _ _ h3 h4 => exact ⟨b, [c, d], rfl, by simp [h3, h4]⟩
  | four b c d e _ _ h3 h4 h5 => exact ⟨b, [c, d, e], rfl, by simp [h3, h4, h5]⟩

/-- What Go sees in a piece. -/
noncomputable def pieceChars : Piece → List (Char × List UInt8)
  | .seq bs => open Classical in if h : ∃ c : Char, bs = utf8 [c] then [(Classical.choose h, bs)] else badBytes bs
  | .bad b => [('\uFFFD', [b])]

theorem goChars_seq {bs : List UInt8} (hs : IsSeq bs) (rest : List UInt8) (rs : List (Char × List UInt8)) (h : GoChars rest rs) :
    GoChars (bs ++ rest) (pieceChars (.seq bs) ++ rs) := by
  simp only [pieceChars]
  split
  · next hc =>
    have e := Classical.choose_spec hc
    generalize Classical.choose hc = c at *
    subst e
    exact .char c rest rs h
  · next hc =>
    obtain ⟨b, conts, rfl, hcs⟩ := isSeq_shape hs
    refine .bad b _ _ ?_ (goChars_conts conts hcs rest rs h)
    rintro ⟨c, rest', h1⟩
    rw [utf8_one] at h1
    obtain ⟨h2, -⟩ := hs.unique (isSeq_encode c) h1
    exact hc ⟨c, by rw [utf8_one, h2]⟩

theorem goChars_pieces {data : List UInt8} {ps : List Piece} (h : Pieces data ps) : GoChars data (ps.flatMap pieceChars) := by
  induction h with
  | nil => exact .nil
  | seq bs rest ps h1 h2 ih => exact goChars_seq h1 _ _ ih
  | bad b rest ps h1 h2 ih =>
    refine .bad b rest _ ?_ ih
    rintro ⟨c, rest', h3⟩
    rw [utf8_one] at h3
    exact h1 ⟨_, rest', isSeq_encode c, h3⟩

theorem pieces_middle {p1 p2 p3 : List Piece} {data : List UInt8} (h : Pieces data (p1 ++ p2 ++ p3)) : Pieces (piecesBytes p2) p2 := by
  rw [List.append_assoc] at h
  obtain ⟨r, _, h2⟩ := pieces_drop h
  exact pieces_prefix h2

theorem goChars_segments {data : List UInt8} (segs : List (List Piece)) : ∀ pre : List Piece, Pieces data (pre ++ segs.flatten) →
    ForallTwo GoChars (segs.map piecesBytes) (segs.map fun seg => seg.flatMap pieceChars) := by
  induction segs with
  | nil => intro _ _; exact .nil
  | cons seg segs ih =>
    intro pre h
    rw [List.flatten_cons, ← List.append_assoc] at h
    exact .cons _ _ _ _ (goChars_pieces (pieces_middle h)) (ih _ h)

theorem goChars_tokens {data : List UInt8} {toks : List (List UInt8)} (ht : tokens data = .ok toks) :
    ∃ rss, ForallTwo GoChars toks rss ∧ GoChars data rss.flatten := by
  obtain ⟨ps, hps⟩ := pieces_total data
  obtain ⟨segs, hs, rfl⟩ := clusters_of_tokens hps ht
  have hseg := clusters_concat hs
  refine ⟨_, goChars_segments segs [] (by rw [hseg]; exact hps), ?_⟩
  have := goChars_pieces hps
  rw [← hseg] at this
  have e : ∀ segs : List (List Piece), segs.flatten.flatMap pieceChars = (segs.map fun seg => seg.flatMap pieceChars).flatten := by
    intro segs
    induction segs with
    | nil => rfl
    | cons seg segs ih => simp [ih]
  rwa [e] at this

end Textseg
