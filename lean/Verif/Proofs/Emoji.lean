import Verif.Spec.Emoji
import Verif.Proofs.DataFiles
import Verif.Proofs.Disjoint
import Verif.Props.Rules
/-!
# Emoji sequences
-/

namespace Textseg.Gen
open Textseg Spec

/-- The kinds of lines in emoji-data.txt, with tags for these three properties. -/
def emojiKinds' : List Kind := [
  ⟨text! "; Extended_Pictographic#", 0x1000000000000000000000000000000000000000000000000, 0, [(1, ascii "Extended_Pictographic", 0)]⟩,
  ⟨text! "; Emoji                #", 0x1000000000000000000000000000000000000000000000000, 1, [(1, ascii "Emoji", 16)]⟩,
  ⟨text! "; Emoji_Presentation   #", 0x1000000000000000000000000000000000000000000000000, 0, [(1, ascii "Emoji_Presentation", 3)]⟩,
  ⟨text! "; Emoji_Modifier_Base  #", 0x1000000000000000000000000000000000000000000000000, 2, [(1, ascii "Emoji_Modifier_Base", 2)]⟩,
  ⟨text! "; Emoji_Component      #", 0x1000000000000000000000000000000000000000000000000, 0, [(1, ascii "Emoji_Component", 6)]⟩,
  ⟨text! "; Emoji_Modifier       #", 0x1000000000000000000000000000000000000000000000000, 3, [(1, ascii "Emoji_Modifier", 7)]⟩]

def emojiTag : EmojiProperty → Nat | .Emoji => 1 | .ModifierBase => 2 | .Modifier => 3

def emojiName : EmojiProperty → List UInt8
  | .Emoji => ascii "Emoji"
  | .ModifierBase => ascii "Emoji_Modifier_Base"
  | .Modifier => ascii "Emoji_Modifier"

def emojiFields (t : Nat) : List (List UInt8) :=
  ([[], [ascii "Emoji"], [ascii "Emoji_Modifier_Base"], [ascii "Emoji_Modifier"]] : List (List (List UInt8))).getD t []

def emojiRel (fs : List (List UInt8)) : Bool :=
  fs.head? == some (ascii "Emoji") || fs.head? == some (ascii "Emoji_Modifier_Base") || fs.head? == some (ascii "Emoji_Modifier")

set_option maxRecDepth 100000 in
theorem emoji_checked' : allRead (partsN emojiTag emojiKinds' Text.emojiData emojiEntries) = true := by decide +kernel
theorem emoji_kinds' : ∀ x ∈ emojiKinds', x.Ok emojiRel emojiFields := kinds_ok (by decide +kernel)

end Textseg.Gen

namespace Textseg
open Spec

/-! ## The characters -/

/-- Whether the numbers in the ranges (lo, hi) either lie in the ranges `ps` or are special; quick if both are sorted. -/
def covers {α : Type} (q : Nat → Bool) : Nat → List (Nat × Nat) → List (Nat × Nat × α) → Bool
  | 0, es, _ => es.isEmpty
  | _ + 1, [], _ => true
  | f + 1, (lo, hi) :: es, [] =>
    cond (Nat.ble lo hi) (cond (q lo) (covers (α := α) q f ((lo + 1, hi) :: es) []) false) (covers (α := α) q f es [])
  | f + 1, (lo, hi) :: es, (a, b, v) :: ps =>
    cond (Nat.ble lo hi)
      (cond (Nat.ble lo b)
        (cond (Nat.ble a lo) (covers q f ((b + 1, hi) :: es) ((a, b, v) :: ps))
          (cond (q lo) (covers q f ((lo + 1, hi) :: es) ((a, b, v) :: ps)) false))
        (covers q f ((lo, hi) :: es) ps))
      (covers q f es ((a, b, v) :: ps))

theorem ble_false {a b : Nat} : Nat.ble a b = false ↔ b < a := by
  rw [← Bool.not_eq_true, Nat.ble_eq]; omega

theorem covers_sound {α : Type} (q : Nat → Bool) : ∀ (f : Nat) (es : List (Nat × Nat)) (ps : List (Nat × Nat × α)),
    covers q f es ps = true → ∀ e ∈ es, ∀ c, e.1 ≤ c → c ≤ e.2 → (lookupRange c ps).isSome = true ∨ q c = true
  | _, [], _, _, e, he, _, _, _ => by cases he
  | 0, _ :: _, _, h, _, _, _, _, _ => by rw [covers] at h; cases h
  | f + 1, (lo, hi) :: es, [], h, e, he, c, h1, h2 => by
    rw [covers] at h
    cases hb : Nat.ble lo hi
    · rw [hb] at h
      rw [ble_false] at hb
      rcases List.mem_cons.mp he with rfl | he
      · simp only at h1 h2; omega
      · exact covers_sound q f es [] h e he c h1 h2
    · rw [hb] at h
      cases hq : q lo
      · rw [hq] at h; cases h
      · rw [hq] at h
        rcases List.mem_cons.mp he with rfl | he
        · by_cases hc : c = lo
          · rw [hc]; exact .inr hq
          · exact covers_sound q f _ [] h (lo + 1, hi) (List.mem_cons_self ..) c (by simp only at h1 ⊢; omega) h2
        · exact covers_sound q f _ [] h e (List.mem_cons_of_mem _ he) c h1 h2
  | f + 1, (lo, hi) :: es, (a, b, v) :: ps, h, e, he, c, h1, h2 => by
    have lift : (lookupRange c ps).isSome = true ∨ q c = true → (lookupRange c ((a, b, v) :: ps)).isSome = true ∨ q c = true := by
      rintro (h | h)
      · left
        rw [lookupRange]
        split
        · rfl
        · exact h
      · exact .inr h
    rw [covers] at h
    cases hb : Nat.ble lo hi
    · rw [hb] at h
      rw [ble_false] at hb
      rcases List.mem_cons.mp he with rfl | he
      · simp only at h1 h2; omega
      · exact covers_sound q f es _ h e he c h1 h2
    · rw [hb] at h
      cases hlb : Nat.ble lo b
      · rw [hlb] at h
        exact lift (covers_sound q f _ ps h e he c h1 h2)
      · rw [hlb] at h
        cases hal : Nat.ble a lo
        · rw [hal] at h
          cases hq : q lo
          · rw [hq] at h; cases h
          · rw [hq] at h
            rcases List.mem_cons.mp he with rfl | he
            · by_cases hc : c = lo
              · rw [hc]; exact .inr hq
              · exact covers_sound q f _ _ h (lo + 1, hi) (List.mem_cons_self ..) c (by simp only at h1 ⊢; omega) h2
            · exact covers_sound q f _ _ h e (List.mem_cons_of_mem _ he) c h1 h2
        · rw [hal] at h
          rcases List.mem_cons.mp he with rfl | he
          · by_cases hc : c ≤ b
            · left
              rw [lookupRange, if_pos ⟨by have := Nat.ble_eq.mp hal; simp only at h1; omega, hc⟩]
              rfl
            · exact covers_sound q f _ _ h (b + 1, hi) (List.mem_cons_self ..) c (by simp only; omega) h2
          · exact covers_sound q f _ _ h e (List.mem_cons_of_mem _ he) c h1 h2

def emojiSpecial (c : Nat) : Bool :=
  (Nat.ble 0x30 c && Nat.ble c 0x39) || Nat.beq c 0x23 || Nat.beq c 0x2A ||
    (Nat.ble 0x1F1E6 c && Nat.ble c 0x1F1FF) || (Nat.ble 0x1F3FB c && Nat.ble c 0x1F3FF)

def rangesOf (k : EmojiProperty) : List (Nat × Nat) := emojiEntries.filterMap fun r => if r.2.2 = k then some (r.1, r.2.1) else none

theorem mem_rangesOf {k : EmojiProperty} {r : Nat × Nat × EmojiProperty} (hr : r ∈ emojiEntries) (hk : r.2.2 = k) :
    (r.1, r.2.1) ∈ rangesOf k :=
  List.mem_filterMap.mpr ⟨r, hr, if_pos hk⟩

set_option maxRecDepth 100000 in
theorem emoji_covered : covers emojiSpecial 3000 (rangesOf .Emoji) extendedPictographic = true := by decide +kernel
set_option maxRecDepth 100000 in
theorem base_covered : covers (fun _ => false) 3000 (rangesOf .ModifierBase) extendedPictographic = true := by decide +kernel
set_option maxRecDepth 100000 in
theorem modifier_ranges : rangesOf .Modifier = [(0x1F3FB, 0x1F3FF)] := by decide +kernel

theorem modifier_listed : (0x1F3FB, 0x1F3FF, EmojiProperty.Modifier) ∈ emojiEntries := by decide +kernel

theorem modifier_range {c : Char} : HasEmojiProperty .Modifier c ↔ 0x1F3FB ≤ c.val.toNat ∧ c.val.toNat ≤ 0x1F3FF := by
  constructor
  · rintro ⟨r, hr, hk, h1, h2⟩
    have := mem_rangesOf hr hk
    rw [modifier_ranges, List.mem_singleton, Prod.mk.injEq] at this
    omega
  · intro ⟨h1, h2⟩
    exact ⟨_, modifier_listed, rfl, h1, h2⟩

theorem base_pict {c : Char} (h : HasEmojiProperty .ModifierBase c) : isPict c := by
  obtain ⟨r, hr, hk, h1, h2⟩ := h
  rcases covers_sound _ _ _ _ base_covered _ (mem_rangesOf hr hk) _ h1 h2 with h | h
  · exact h
  · cases h

theorem emoji_char {c : Char} (h : HasEmojiProperty .Emoji c) : isPict c ∨ c ∈ keycapBases ∨
    (0x1F1E6 ≤ c.val.toNat ∧ c.val.toNat ≤ 0x1F1FF) ∨ HasEmojiProperty .Modifier c := by
  obtain ⟨r, hr, hk, h1, h2⟩ := h
  rcases covers_sound _ _ _ _ emoji_covered _ (mem_rangesOf hr hk) _ h1 h2 with h | this
  · exact .inl h
  simp only [emojiSpecial, Bool.or_eq_true, Bool.and_eq_true, Nat.ble_eq, Nat.beq_eq] at this
  have key : ∀ d : Char, d ∈ keycapBases → c.val.toNat = d.val.toNat → c ∈ keycapBases := by
    intro d hd e
    have : c = d := Char.ext (UInt32.toNat_inj.mp e)
    rw [this]; exact hd
  rcases this with (((h | h) | h) | h) | h
  · right; left
    have : c.val.toNat = 0x30 ∨ c.val.toNat = 0x31 ∨ c.val.toNat = 0x32 ∨ c.val.toNat = 0x33 ∨ c.val.toNat = 0x34 ∨
      c.val.toNat = 0x35 ∨ c.val.toNat = 0x36 ∨ c.val.toNat = 0x37 ∨ c.val.toNat = 0x38 ∨ c.val.toNat = 0x39 := by omega
    rcases this with e | e | e | e | e | e | e | e | e | e
    · exact key '0' (by decide) e
    · exact key '1' (by decide) e
    · exact key '2' (by decide) e
    · exact key '3' (by decide) e
    · exact key '4' (by decide) e
    · exact key '5' (by decide) e
    · exact key '6' (by decide) e
    · exact key '7' (by decide) e
    · exact key '8' (by decide) e
    · exact key '9' (by decide) e
  · exact .inr (.inl (key '#' (by decide) h))
  · exact .inr (.inl (key '*' (by decide) h))
  · exact .inr (.inr (.inl h))
  · exact .inr (.inr (.inr (modifier_range.mpr h)))

theorem gcb_of_mem {c lo hi : Nat} {g : GCB} (h : (lo, hi, g) ∈ graphemeBreakProperty) (h1 : lo ≤ c) (h2 : c ≤ hi) :
    (ucd c).gcb = g := by
  unfold ucd
  simp only
  rw [lookupRange_of_mem gcb_disjoint h h1 h2]
  rfl

theorem ri_mem : (0x1F1E6, 0x1F1FF, GCB.RegionalIndicator) ∈ graphemeBreakProperty := by decide +kernel
theorem mod_mem : (0x1F3FB, 0x1F3FF, GCB.Extend) ∈ graphemeBreakProperty := by decide +kernel
theorem tag_mem : (0xE0020, 0xE007F, GCB.Extend) ∈ graphemeBreakProperty := by decide +kernel

theorem modifier_extend {c : Char} (h : HasEmojiProperty .Modifier c) : gcbOf c = .Extend :=
  gcb_of_mem mod_mem (modifier_range.mp h).1 (modifier_range.mp h).2

theorem ofNat_val {n : Nat} (h : n.isValidChar) : (Char.ofNat n).val.toNat = n := by
  unfold Char.ofNat
  rw [dif_pos h]
  rfl

theorem tag_extend {n : Nat} (h1 : 0x20 ≤ n) (h2 : n ≤ 0x7F) : gcbOf (tagChar n) = .Extend := by
  unfold gcbOf tagChar
  rw [ofNat_val (by unfold Nat.isValidChar; omega)]
  exact gcb_of_mem tag_mem (by omega) (by omega)

theorem ri_gcb {n : Nat} (h : n < 26) : gcbOf (regionalIndicator n) = .RegionalIndicator := by
  unfold gcbOf regionalIndicator
  rw [ofNat_val (by unfold Nat.isValidChar; omega)]
  exact gcb_of_mem ri_mem (by omega) (by omega)

theorem keycap_other : ∀ c ∈ keycapBases, gcbOf c = .Other := by decide +kernel

theorem emoji_notctl {c : Char} (h : HasEmojiProperty .Emoji c) : ¬ isCtlChar c := by
  have : gcbOf c = .Other ∨ gcbOf c = .RegionalIndicator ∨ gcbOf c = .Extend := by
    rcases emoji_char h with h | h | h | h
    · exact .inl ((ucd_consistent c.val.toNat).pict h).1
    · exact .inl (keycap_other c h)
    · exact .inr (.inl (gcb_of_mem ri_mem h.1 h.2))
    · exact .inr (.inr (modifier_extend h))
  unfold isCtlChar CharProps.isControl
  unfold gcbOf at this
  rcases this with h | h | h <;> rw [h] <;> decide

theorem joinable_pict {c : Char} (h : HasEmojiProperty .Emoji c) (hj : EmojiJoinable c) : isPict c := by
  rcases emoji_char h with h | h | h | h
  · exact h
  · exact absurd h hj.1
  · refine absurd ?_ (hj.2.1 (c.val.toNat - 0x1F1E6) (by omega))
    unfold regionalIndicator
    rw [show 0x1F1E6 + (c.val.toNat - 0x1F1E6) = c.val.toNat by omega]
    exact (Char.ofNat_toNat c).symm
  · exact absurd h hj.2.2

theorem fe0f_extend : gcbOf '\uFE0F' = .Extend := by decide +kernel
theorem fe0e_extend : gcbOf '\uFE0E' = .Extend := by decide +kernel
theorem keycap_extend : gcbOf '\u20E3' = .Extend := by decide +kernel
theorem zwj_gcb : gcbOf '\u200D' = .ZWJ := by decide +kernel

/-! ## The sequences -/

theorem element_form {s : List Char} (h : EmojiElement s) : ∃ c xs, s = c :: xs ∧ ¬ isCtlChar c ∧
    (∀ x ∈ xs, gcbOf x = .Extend) ∧ (EmojiJoinable c → isPict c) := by
  cases h with
  | character c h => exact ⟨c, [], rfl, emoji_notctl h, by simp, joinable_pict h⟩
  | emojiPresentation c h => exact ⟨c, _, rfl, emoji_notctl h, by simpa using fe0f_extend, joinable_pict h⟩
  | textPresentation c h => exact ⟨c, _, rfl, emoji_notctl h, by simpa using fe0e_extend, joinable_pict h⟩
  | modified c m h1 h2 =>
    have hp := base_pict h1
    refine ⟨c, _, rfl, ?_, by simpa using modifier_extend h2, fun _ => hp⟩
    have := ((ucd_consistent c.val.toNat).pict hp).1
    unfold isCtlChar CharProps.isControl
    rw [this]
    decide

theorem joined_zwj {s : List Char} (h : EmojiJoined s) : IsEmojiZwj s := by
  induction h with
  | one c s h1 h2 =>
    obtain ⟨c', xs, e, _, h3, h4⟩ := element_form h1
    cases e
    exact .element _ _ (h4 h2) h3
  | more t c s _ h1 h2 ih =>
    obtain ⟨c', xs, e, _, h3, h4⟩ := element_form h1
    cases e
    exact .join _ _ _ _ ih zwj_gcb (h4 h2) h3

theorem unbroken_extends {pre post : List Char} {c : Char} {xs : List Char} (hc : ¬ isCtlChar c) (hx : ∀ x ∈ xs, gcbOf x = .Extend)
    {toks : List (List UInt8)} (ht : tokens (utf8 (pre ++ c :: xs ++ post)) = .ok toks) : Unbroken toks pre (c :: xs) := by
  refine unbroken_of ht ?_
  intro u a b v he
  refine breakB_mark _ ?_ (.inl ?_)
  · have ha : a ∈ c :: xs := by rw [he]; simp
    rcases List.mem_cons.mp ha with rfl | ha
    · exact hc
    · have := hx a ha
      unfold gcbOf at this
      rw [CharProps.isControl, this]
      decide
  · refine hx b ?_
    cases u with
    | nil => simp only [List.nil_append, List.cons_append, List.cons.injEq] at he; rw [he.2]; simp
    | cons d u => simp only [List.cons_append, List.cons.injEq] at he; rw [he.2]; simp

theorem sequence_unbroken {pre s post : List Char} (h : EmojiSequence s) {toks : List (List UInt8)}
    (ht : tokens (utf8 (pre ++ s ++ post)) = .ok toks) : Unbroken toks pre s := by
  cases h with
  | element _ h =>
    obtain ⟨c, xs, rfl, h1, h2, _⟩ := element_form h
    exact unbroken_extends h1 h2 ht
  | keycap k h =>
    refine unbroken_extends ?_ ?_ ht
    · have := keycap_other k h
      unfold isCtlChar CharProps.isControl
      unfold gcbOf at this
      rw [this]; decide
    · intro x hx
      simp only [List.mem_cons, List.not_mem_nil, or_false] at hx
      rcases hx with rfl | rfl
      · exact fe0f_extend
      · exact keycap_extend
  | tag s ns h hn =>
    obtain ⟨c, xs, rfl, h1, h2, _⟩ := element_form h
    refine unbroken_extends (xs := xs ++ ns.map tagChar ++ [tagChar 0x7F]) h1 ?_ ht
    intro x hx
    rw [List.mem_append, List.mem_append, List.mem_map, List.mem_singleton] at hx
    rcases hx with (hx | ⟨n, hx, rfl⟩) | rfl
    · exact h2 x hx
    · exact tag_extend (hn n hx).1 (by have := (hn n hx).2; omega)
    · exact tag_extend (by omega) (by omega)
  | joined _ h => exact Props.C19_zwj_sequence_unbroken pre s post (joined_zwj h) toks ht

theorem sequence_ne {s : List Char} (h : EmojiSequence s) : s ≠ [] := by
  cases h with
  | element _ h => obtain ⟨c, xs, rfl, _⟩ := element_form h; simp
  | keycap k h => simp
  | tag s ns h hn => simp
  | joined _ h => cases h <;> simp

theorem single_token {s : List Char} (hs : s ≠ []) (h : ∀ toks, tokens (utf8 s) = .ok toks → Unbroken toks [] s) :
    tokens (utf8 s) = .ok [utf8 s] := by
  obtain ⟨segs, h1, h2⟩ := tokens_text s
  rw [h2]
  cases segs with
  | nil => exact absurd h1.concat.symm hs
  | cons p segs =>
    cases segs with
    | nil => rw [← h1.concat]; simp
    | cons q segs =>
      refine absurd ⟨1, ?_⟩ (h _ h2 p (q ++ segs.flatten) (by rw [← h1.concat]; simp) (h1.nonempty p (by simp))
        (by have := h1.nonempty q (by simp); simp [this]))
      simp

end Textseg
