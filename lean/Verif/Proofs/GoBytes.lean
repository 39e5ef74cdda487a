import Verif.Model.GoBytes
import Verif.Spec.UCDFormat
/-!
# bytes.Cut, bytes.TrimSpace and strconv.ParseUint do what the format specification needs
-/

namespace Textseg
open Spec

/-! ## Cut -/

theorem bytesIndex_notMem {c : UInt8} {sep a : List UInt8} (h : c ∉ a) : bytesIndex (c :: sep) a = none := by
  induction a with
  | nil => simp [bytesIndex]
  | cons x a ih =>
    have hx : c ≠ x := by intro e; subst e; exact h (List.mem_cons_self ..)
    have : (c :: sep).isPrefixOf (x :: a) = false := by
      simp [List.isPrefixOf, hx]
    simp only [bytesIndex, this, Bool.false_eq_true, if_false, ih (fun hm => h (List.mem_cons_of_mem _ hm)), Option.map_none]

theorem bytesIndex_append {c : UInt8} {sep a b : List UInt8} (h : c ∉ a) :
    bytesIndex (c :: sep) (a ++ c :: sep ++ b) = some a.length := by
  induction a with
  | nil =>
    have : (c :: sep).isPrefixOf ((c :: sep) ++ b) = true := by
      rw [List.isPrefixOf_iff_prefix]; exact List.prefix_append _ _
    simp only [List.nil_append, List.cons_append] at this ⊢
    simp only [bytesIndex, this, if_true, List.length_nil]
  | cons x a ih =>
    have hx : c ≠ x := by intro e; subst e; exact h (List.mem_cons_self ..)
    have ih := ih (fun hm => h (List.mem_cons_of_mem _ hm))
    have : (c :: sep).isPrefixOf (x :: (a ++ c :: sep ++ b)) = false := by
      simp [List.isPrefixOf, hx]
    show bytesIndex (c :: sep) (x :: (a ++ c :: sep ++ b)) = _
    simp only [bytesIndex]
    rw [this]
    simp only [Bool.false_eq_true, if_false, ih, Option.map_some, List.length_cons]

theorem bytesCut_notMem {c : UInt8} {sep a : List UInt8} (h : c ∉ a) : bytesCut a (c :: sep) = (a, [], false) := by
  rw [bytesCut, bytesIndex_notMem h]

theorem bytesCut_append {c : UInt8} {sep a b : List UInt8} (h : c ∉ a) :
    bytesCut (a ++ c :: sep ++ b) (c :: sep) = (a, b, true) := by
  rw [bytesCut, bytesIndex_append h]
  simp only [List.take_append_of_le_length, List.append_assoc, Nat.le_refl, List.take_length, Prod.mk.injEq, true_and,
    and_true]
  rw [List.drop_append, List.drop_of_length_le (by omega), Nat.add_sub_cancel_left, List.drop_left]
  rfl

theorem bytesIndex_some {sep s : List UInt8} {i : Nat} (h : bytesIndex sep s = some i) :
    ∃ b, s = s.take i ++ sep ++ b ∧ i ≤ s.length := by
  induction s generalizing i with
  | nil =>
    unfold bytesIndex at h
    split at h
    · next hs => cases h; exact ⟨[], by simp [hs], Nat.le_refl _⟩
    · cases h
  | cons x s ih =>
    unfold bytesIndex at h
    split at h
    · next hs =>
      cases h
      rw [List.isPrefixOf_iff_prefix] at hs
      obtain ⟨b, hb⟩ := hs
      exact ⟨b, by simp [hb], Nat.zero_le _⟩
    · cases hi : bytesIndex sep s with
      | none => rw [hi] at h; cases h
      | some j =>
        rw [hi] at h
        cases h
        obtain ⟨b, hb, hl⟩ := ih hi
        refine ⟨b, ?_, by simp only [List.length_cons]; omega⟩
        simp only [List.take_succ_cons, List.cons_append]
        rw [← hb]

theorem bytesCut_found {s sep a b : List UInt8} (h : bytesCut s sep = (a, b, true)) : s = a ++ sep ++ b := by
  unfold bytesCut at h
  split at h
  · next i hi =>
    cases h
    obtain ⟨b, hb, hl⟩ := bytesIndex_some hi
    have hd : s.drop (i + sep.length) = b := by
      have e1 : (s.take i ++ sep ++ b).drop (i + sep.length) = b := by
        rw [List.append_assoc, List.drop_append, List.length_take, Nat.min_eq_left hl]
        rw [List.drop_of_length_le (by rw [List.length_take]; omega), Nat.add_sub_cancel_left, List.drop_left]
        rfl
      rw [← hb] at e1
      exact e1
    rw [hd]; exact hb
  · cases h

theorem bytesCut_notFound {s sep a b : List UInt8} (h : bytesCut s sep = (a, b, false)) : a = s ∧ b = [] := by
  unfold bytesCut at h
  split at h
  · cases h
  · cases h; exact ⟨rfl, rfl⟩

theorem bytesCut_single_found {s a b : List UInt8} {c : UInt8} (h : bytesCut s [c] = (a, b, true)) : c ∉ a := by
  intro hm
  obtain ⟨a1, a2, rfl⟩ := List.append_of_mem hm
  have hs := bytesCut_found h
  -- take the first occurrence
  have : ∀ a1 : List UInt8, ∀ a2, c ∈ (a1 ++ c :: a2) → ∃ x y, a1 ++ c :: a2 = x ++ c :: y ∧ c ∉ x := by
    intro a1 a2 hm
    obtain ⟨x, y, h1, h2⟩ := List.append_of_mem hm |> fun _ => List.eq_append_cons_of_mem hm
    exact ⟨x, y, h1, h2⟩
  obtain ⟨x, y, h1, h2⟩ := this a1 a2 hm
  rw [h1] at hs
  have e : s = x ++ c :: [] ++ (y ++ c :: b) := by rw [hs]; simp
  rw [e, bytesCut_append h2] at h
  have := congrArg Prod.fst h
  simp only at this
  rw [h1] at this
  have := congrArg List.length this
  simp at this

theorem bytesCut_single_notFound {s a b : List UInt8} {c : UInt8} (h : bytesCut s [c] = (a, b, false)) : c ∉ s := by
  intro hm
  obtain ⟨x, y, h1, h2⟩ := List.eq_append_cons_of_mem hm
  have e : s = x ++ c :: [] ++ y := by rw [h1]; simp
  rw [e, bytesCut_append h2] at h
  cases h

/-! ## TrimSpace -/

/-- The model's table is the specification's list. -/
theorem spaceSequences_eq : spaceSequences = whiteSpace.map (fun c => utf8 [c]) := by decide +kernel

theorem mem_space {w : List UInt8} : w ∈ spaceSequences ↔ ∃ c ∈ whiteSpace, utf8 [c] = w := by
  rw [spaceSequences_eq, List.mem_map]

theorem space_length {w : List UInt8} (h : w ∈ spaceSequences) : w.length = 1 ∨ w.length = 2 ∨ w.length = 3 := by
  have : ∀ w ∈ spaceSequences, w.length = 1 ∨ w.length = 2 ∨ w.length = 3 := by decide +kernel
  exact this w h

theorem space_prefix_free : ∀ w ∈ spaceSequences, ∀ k, k < 3 → k < w.length → w.take k ∉ spaceSequences := by
  decide +kernel

theorem space_suffix_free : ∀ w ∈ spaceSequences, ∀ k, k < 3 → k < w.length → w.drop (w.length - k) ∉ spaceSequences := by
  decide +kernel

theorem leadingSpace_append {w : List UInt8} (h : w ∈ spaceSequences) (s : List UInt8) : leadingSpace (w ++ s) = w.length := by
  have hc : ∀ x, spaceSequences.contains x = true ↔ x ∈ spaceSequences := fun x => by simp
  have hp := space_prefix_free w h
  have htk : (w ++ s).take w.length = w := by simp
  have hlt : ∀ k, k < w.length → (w ++ s).take k = w.take k := fun k hk => by
    rw [List.take_append_of_le_length (by omega)]
  unfold leadingSpace
  rcases space_length h with hl | hl | hl
  · rw [if_pos]
    · exact hl.symm
    · rw [hc, ← hl, htk]; exact h
  · rw [if_neg, if_pos]
    · exact hl.symm
    · rw [hc, ← hl, htk]; exact h
    · rw [hc, hlt 1 (by omega)]; exact hp 1 (by omega) (by omega)
  · rw [if_neg, if_neg, if_pos]
    · exact hl.symm
    · rw [hc, ← hl, htk]; exact h
    · rw [hc, hlt 2 (by omega)]; exact hp 2 (by omega) (by omega)
    · rw [hc, hlt 1 (by omega)]; exact hp 1 (by omega) (by omega)

theorem trailingSpace_append {w : List UInt8} (h : w ∈ spaceSequences) (s : List UInt8) : trailingSpace (s ++ w) = w.length := by
  have hc : ∀ x, spaceSequences.contains x = true ↔ x ∈ spaceSequences := fun x => by simp
  have hp := space_suffix_free w h
  have hlt : ∀ k, k ≤ w.length → (s ++ w).drop ((s ++ w).length - k) = w.drop (w.length - k) := fun k hk => by
    rw [List.drop_append, List.drop_of_length_le (by rw [List.length_append]; omega), List.nil_append]
    congr 1
    rw [List.length_append]; omega
  have htk : (s ++ w).drop ((s ++ w).length - w.length) = w := by
    rw [hlt _ (Nat.le_refl _), Nat.sub_self, List.drop_zero]
  unfold trailingSpace
  rcases space_length h with hl | hl | hl
  · rw [if_pos]
    · exact hl.symm
    · rw [hc, ← hl, htk]; exact h
  · rw [if_neg, if_pos]
    · exact hl.symm
    · rw [hc, ← hl, htk]; exact h
    · rw [hc, hlt 1 (by omega)]; exact hp 1 (by omega) (by omega)
  · rw [if_neg, if_neg, if_pos]
    · exact hl.symm
    · rw [hc, ← hl, htk]; exact h
    · rw [hc, hlt 2 (by omega)]; exact hp 2 (by omega) (by omega)
    · rw [hc, hlt 1 (by omega)]; exact hp 1 (by omega) (by omega)

theorem leadingSpace_ne {s : List UInt8} (h : leadingSpace s ≠ 0) : ∃ w ∈ spaceSequences, ∃ r, s = w ++ r := by
  have hc : ∀ x, spaceSequences.contains x = true → x ∈ spaceSequences := fun x => by simp
  unfold leadingSpace at h
  split at h
  · next h1 => exact ⟨_, hc _ h1, s.drop 1, (List.take_append_drop ..).symm⟩
  · split at h
    · next h1 => exact ⟨_, hc _ h1, s.drop 2, (List.take_append_drop ..).symm⟩
    · split at h
      · next h1 => exact ⟨_, hc _ h1, s.drop 3, (List.take_append_drop ..).symm⟩
      · exact absurd rfl h

theorem trailingSpace_ne {s : List UInt8} (h : trailingSpace s ≠ 0) : ∃ w ∈ spaceSequences, ∃ r, s = r ++ w := by
  have hc : ∀ x, spaceSequences.contains x = true → x ∈ spaceSequences := fun x => by simp
  unfold trailingSpace at h
  split at h
  · next h1 => exact ⟨_, hc _ h1, s.take (s.length - 1), (List.take_append_drop ..).symm⟩
  · split at h
    · next h1 => exact ⟨_, hc _ h1, s.take (s.length - 2), (List.take_append_drop ..).symm⟩
    · split at h
      · next h1 => exact ⟨_, hc _ h1, s.take (s.length - 3), (List.take_append_drop ..).symm⟩
      · exact absurd rfl h

/-- Several white space characters. -/
inductive Spaces : List UInt8 → Prop
  | nil : Spaces []
  | cons (w rest : List UInt8) : w ∈ spaceSequences → Spaces rest → Spaces (w ++ rest)

theorem spaces_iff {w : List UInt8} : Spaces w ↔ IsSpaces w := by
  constructor
  · intro h
    induction h with
    | nil => exact ⟨[], by simp, rfl⟩
    | cons w rest hw _ ih =>
      obtain ⟨c, hc, rfl⟩ := mem_space.mp hw
      obtain ⟨cs, hcs, rfl⟩ := ih
      refine ⟨c :: cs, ?_, by simp [utf8]⟩
      intro x hx
      rcases List.mem_cons.mp hx with rfl | hx
      · exact hc
      · exact hcs x hx
  · rintro ⟨cs, h, rfl⟩
    induction cs with
    | nil => exact .nil
    | cons c cs ih =>
      have : utf8 (c :: cs) = utf8 [c] ++ utf8 cs := by simp [utf8]
      rw [this]
      exact .cons _ _ (mem_space.mpr ⟨c, h c (List.mem_cons_self ..), rfl⟩) (ih fun x hx => h x (List.mem_cons_of_mem _ hx))

theorem Spaces.append {a b : List UInt8} (ha : Spaces a) (hb : Spaces b) : Spaces (a ++ b) := by
  induction ha with
  | nil => exact hb
  | cons w rest hw _ ih => rw [List.append_assoc]; exact .cons _ _ hw ih

theorem Spaces.single {w : List UInt8} (h : w ∈ spaceSequences) : Spaces w := by
  have := Spaces.cons w [] h .nil
  rwa [List.append_nil] at this

/-- Taking white space characters from the end. -/
theorem Spaces.snoc_ind {P : List UInt8 → Prop} (h0 : P []) (h1 : ∀ a w, Spaces a → w ∈ spaceSequences → P a → P (a ++ w))
    {w : List UInt8} (h : Spaces w) : P w := by
  have key : ∀ {b}, Spaces b → ∀ a, Spaces a → P a → P (a ++ b) := by
    intro b hb
    induction hb with
    | nil => intro a _ hp; rwa [List.append_nil]
    | cons w rest hw _ ih =>
      intro a ha hp
      rw [← List.append_assoc]
      exact ih _ (ha.append (.single hw)) (h1 a w ha hw hp)
  exact key h [] .nil h0

theorem trimLeft_spaces {w s : List UInt8} (hw : Spaces w) : ∀ fuel, (w ++ s).length ≤ fuel → ∃ f, s.length ≤ f ∧
    trimLeft fuel (w ++ s) = trimLeft f s := by
  induction hw with
  | nil => intro fuel hf; exact ⟨fuel, hf, rfl⟩
  | cons w rest hw _ ih =>
    intro fuel hf
    have hl := space_length hw
    rw [List.append_assoc] at hf ⊢
    match fuel, hf with
    | 0, hf => rw [List.length_append] at hf; omega
    | fuel + 1, hf =>
      rw [show trimLeft (fuel + 1) (w ++ (rest ++ s)) = trimLeft fuel (rest ++ s) by
        conv => lhs; unfold trimLeft
        rw [leadingSpace_append hw, if_neg (by omega), List.drop_left]]
      refine ih fuel ?_
      rw [List.length_append] at hf; omega

theorem trimLeft_of_none {s : List UInt8} (h : leadingSpace s = 0) (fuel : Nat) : trimLeft fuel s = s := by
  cases fuel with
  | zero => rfl
  | succ fuel => unfold trimLeft; rw [if_pos h]

theorem trimRight_spaces {w s : List UInt8} (hw : Spaces w) : ∀ fuel, (s ++ w).length ≤ fuel → ∃ f, s.length ≤ f ∧
    trimRight fuel (s ++ w) = trimRight f s := by
  refine Spaces.snoc_ind (P := fun w => ∀ fuel, (s ++ w).length ≤ fuel → ∃ f, s.length ≤ f ∧
    trimRight fuel (s ++ w) = trimRight f s) ?_ ?_ hw
  · intro fuel hf; rw [List.append_nil] at hf ⊢; exact ⟨fuel, hf, rfl⟩
  · intro a w _ hw ih fuel hf
    have hl := space_length hw
    rw [← List.append_assoc] at hf ⊢
    match fuel, hf with
    | 0, hf => rw [List.length_append] at hf; omega
    | fuel + 1, hf =>
      rw [show trimRight (fuel + 1) (s ++ a ++ w) = trimRight fuel (s ++ a) by
        conv => lhs; unfold trimRight
        rw [trailingSpace_append hw, if_neg (by omega)]
        have : (s ++ a ++ w).length - w.length = (s ++ a).length := by simp only [List.length_append]; omega
        rw [this, List.take_left]]
      refine ih fuel ?_
      rw [List.length_append] at hf; omega

theorem trimRight_of_none {s : List UInt8} (h : trailingSpace s = 0) (fuel : Nat) : trimRight fuel s = s := by
  cases fuel with
  | zero => rfl
  | succ fuel => unfold trimRight; rw [if_pos h]

/-- The first byte of a white space character is not a continuation byte, the other ones are. -/
theorem space_bytes : ∀ w ∈ spaceSequences, ∀ i, i < 3 → i < w.length →
    (i = 0 → (w.getD i 0 < 0x80 ∨ 0xC0 ≤ w.getD i 0)) ∧ (0 < i → 0x80 ≤ w.getD i 0 ∧ w.getD i 0 < 0xC0) := by decide +kernel

theorem trimmed_iff {t : List UInt8} : Trimmed t ↔ leadingSpace t = 0 ∧ trailingSpace t = 0 := by
  constructor
  · intro h
    constructor
    · refine Decidable.byContradiction fun hn => ?_
      obtain ⟨w, hw, r, rfl⟩ := leadingSpace_ne hn
      obtain ⟨c, hc, rfl⟩ := mem_space.mp hw
      exact (h c hc r).1 rfl
    · refine Decidable.byContradiction fun hn => ?_
      obtain ⟨w, hw, r, rfl⟩ := trailingSpace_ne hn
      obtain ⟨c, hc, rfl⟩ := mem_space.mp hw
      exact (h c hc r).2 rfl
  · rintro ⟨h1, h2⟩ c hc r
    have hw : utf8 [c] ∈ spaceSequences := mem_space.mpr ⟨c, hc, rfl⟩
    have hl := space_length hw
    constructor
    · rintro rfl; rw [leadingSpace_append hw] at h1; omega
    · rintro rfl; rw [trailingSpace_append hw] at h2; omega

/-- A text that does not begin with white space, followed by white space, does not begin with white space either. -/
theorem leadingSpace_append_spaces {t w : List UInt8} (ht : t ≠ []) (h0 : leadingSpace t = 0) (hw : Spaces w) :
    leadingSpace (t ++ w) = 0 := by
  refine Decidable.byContradiction fun hn => ?_
  obtain ⟨u, hu, r, hr⟩ := leadingSpace_ne hn
  have hul := space_length hu
  by_cases hl : u.length ≤ t.length
  · have : t = u ++ t.drop u.length := by
      have := congrArg (List.take u.length) hr
      rw [List.take_append_of_le_length hl, List.take_left] at this
      conv => lhs; rw [← List.take_append_drop u.length t, this]
    rw [this, leadingSpace_append hu] at h0
    omega
  · cases hw with
    | nil =>
      have := congrArg List.length hr
      simp only [List.length_append, List.length_nil] at this
      omega
    | cons v rest hv _ =>
      have htl : 0 < t.length := List.length_pos_iff.mpr ht
      have hvl := space_length hv
      have e1 : u.getD t.length 0 = v.getD 0 0 := by
        have h1 : (u ++ r).getD t.length 0 = u.getD t.length 0 := by
          rw [List.getD_eq_getElem?_getD, List.getD_eq_getElem?_getD, List.getElem?_append_left (by omega)]
        have h2 : (t ++ (v ++ rest)).getD t.length 0 = v.getD 0 0 := by
          rw [List.getD_eq_getElem?_getD, List.getD_eq_getElem?_getD, List.getElem?_append_right (Nat.le_refl _), Nat.sub_self,
            List.getElem?_append_left (by omega)]
        rw [← h1, ← hr, h2]
      have b1 := (space_bytes u hu t.length (by omega) (by omega)).2 htl
      have b2 := (space_bytes v hv 0 (by omega) (by omega)).1 rfl
      rw [e1] at b1
      rcases b2 with b2 | b2
      · exact absurd (UInt8.lt_of_lt_of_le b2 b1.1) (UInt8.lt_irrefl _)
      · exact absurd (UInt8.lt_of_lt_of_le b1.2 b2) (UInt8.lt_irrefl _)

/-- TrimSpace removes exactly the padding. -/
theorem TrimSpace_padded {t s : List UInt8} (h : Padded t s) : TrimSpace s = t := by
  obtain ⟨ht, w, w', hw, hw', rfl⟩ := h
  rw [← spaces_iff] at hw hw'
  obtain ⟨h1, h2⟩ := trimmed_iff.mp ht
  have hL : trimLeft (w ++ t ++ w').length (w ++ t ++ w') = if t = [] then [] else t ++ w' := by
    by_cases he : t = []
    · subst he
      rw [if_pos rfl, List.append_nil]
      have hws : Spaces (w ++ w') := hw.append hw'
      obtain ⟨f, _, hf⟩ := trimLeft_spaces (s := []) hws (w ++ w').length (by rw [List.append_nil]; exact Nat.le_refl _)
      rw [List.append_nil] at hf
      rw [hf]
      exact trimLeft_of_none (by decide +kernel) f
    · rw [if_neg he, List.append_assoc]
      obtain ⟨f, _, hf⟩ := trimLeft_spaces (s := t ++ w') hw _ (Nat.le_refl _)
      rw [hf]
      exact trimLeft_of_none (leadingSpace_append_spaces he h1 hw') f
  unfold TrimSpace
  simp only [hL]
  by_cases he : t = []
  · subst he; rfl
  · rw [if_neg he]
    obtain ⟨f, _, hf⟩ := trimRight_spaces (s := t) hw' _ (Nat.le_refl _)
    rw [hf]
    exact trimRight_of_none h2 f

theorem trimLeft_split (s : List UInt8) : ∀ fuel, s.length ≤ fuel → ∃ w, Spaces w ∧ s = w ++ trimLeft fuel s ∧
    leadingSpace (trimLeft fuel s) = 0 := by
  have key : ∀ n (s : List UInt8), s.length ≤ n → ∀ fuel, s.length ≤ fuel → ∃ w, Spaces w ∧ s = w ++ trimLeft fuel s ∧
    leadingSpace (trimLeft fuel s) = 0 := by
    intro n
    induction n with
    | zero =>
      intro s hs fuel _
      have : s = [] := List.eq_nil_of_length_eq_zero (by omega)
      subst this
      have h0 : leadingSpace [] = 0 := by decide +kernel
      refine ⟨[], .nil, ?_, ?_⟩ <;> rw [trimLeft_of_none h0]
      · rfl
      · exact h0
    | succ n ih =>
      intro s hs fuel hf
      by_cases h0 : leadingSpace s = 0
      · refine ⟨[], .nil, ?_, ?_⟩ <;> rw [trimLeft_of_none h0]
        · rfl
        · exact h0
      · obtain ⟨u, hu, r, rfl⟩ := leadingSpace_ne h0
        have hl := space_length hu
        rw [List.length_append] at hs hf
        match fuel, hf with
        | 0, hf => omega
        | fuel + 1, hf =>
          obtain ⟨w, hw, h1, h2⟩ := ih r (by omega) fuel (by omega)
          have e : trimLeft (fuel + 1) (u ++ r) = trimLeft fuel r := by
            conv => lhs; unfold trimLeft
            rw [leadingSpace_append hu, if_neg (by omega), List.drop_left]
          rw [e]
          refine ⟨u ++ w, .cons _ _ hu hw, ?_, h2⟩
          rw [List.append_assoc, ← h1]
  exact key s.length s (Nat.le_refl _)

theorem trimRight_split (s : List UInt8) : ∀ fuel, s.length ≤ fuel → ∃ w, Spaces w ∧ s = trimRight fuel s ++ w ∧
    trailingSpace (trimRight fuel s) = 0 := by
  have key : ∀ n (s : List UInt8), s.length ≤ n → ∀ fuel, s.length ≤ fuel → ∃ w, Spaces w ∧ s = trimRight fuel s ++ w ∧
    trailingSpace (trimRight fuel s) = 0 := by
    intro n
    induction n with
    | zero =>
      intro s hs fuel _
      have : s = [] := List.eq_nil_of_length_eq_zero (by omega)
      subst this
      have h0 : trailingSpace [] = 0 := by decide +kernel
      refine ⟨[], .nil, ?_, ?_⟩ <;> rw [trimRight_of_none h0]
      · rfl
      · exact h0
    | succ n ih =>
      intro s hs fuel hf
      by_cases h0 : trailingSpace s = 0
      · refine ⟨[], .nil, ?_, ?_⟩ <;> rw [trimRight_of_none h0]
        · rw [List.append_nil]
        · exact h0
      · obtain ⟨u, hu, r, rfl⟩ := trailingSpace_ne h0
        have hl := space_length hu
        rw [List.length_append] at hs hf
        match fuel, hf with
        | 0, hf => omega
        | fuel + 1, hf =>
          obtain ⟨w, hw, h1, h2⟩ := ih r (by omega) fuel (by omega)
          have e : trimRight (fuel + 1) (r ++ u) = trimRight fuel r := by
            conv => lhs; unfold trimRight
            rw [trailingSpace_append hu, if_neg (by omega)]
            have : (r ++ u).length - u.length = r.length := by simp only [List.length_append]; omega
            rw [this, List.take_left]
          rw [e]
          refine ⟨w ++ u, hw.append (.single hu), ?_, h2⟩
          rw [← List.append_assoc, ← h1]
  exact key s.length s (Nat.le_refl _)

/-- What remains after removing white space at the end does not begin with white space if it did not before. -/
theorem leadingSpace_prefix {t w : List UInt8} (h : leadingSpace (t ++ w) = 0) : leadingSpace t = 0 := by
  refine Decidable.byContradiction fun hn => ?_
  obtain ⟨u, hu, r, rfl⟩ := leadingSpace_ne hn
  have := space_length hu
  rw [List.append_assoc, leadingSpace_append hu] at h
  omega

/-- Every text is its TrimSpace with padding. -/
theorem padded_TrimSpace (s : List UInt8) : Padded (TrimSpace s) s := by
  unfold TrimSpace
  obtain ⟨w, hw, h1, h2⟩ := trimLeft_split s s.length (Nat.le_refl _)
  generalize trimLeft s.length s = t at h1 h2
  obtain ⟨w', hw', h3, h4⟩ := trimRight_split t t.length (Nat.le_refl _)
  simp only
  generalize trimRight t.length t = u at h3 h4 ⊢
  refine ⟨trimmed_iff.mpr ⟨?_, h4⟩, w, w', spaces_iff.mp hw, spaces_iff.mp hw', ?_⟩
  · rw [h3] at h2; exact leadingSpace_prefix h2
  · rw [h1, h3, List.append_assoc]

theorem padded_iff {t s : List UInt8} : Padded t s ↔ TrimSpace s = t :=
  ⟨TrimSpace_padded, fun h => h ▸ padded_TrimSpace s⟩

/-! ## ParseUint -/

theorem hexDigitVal_byte : ∀ (d : Fin 16) (u : Bool), hexDigitVal (hexDigitByte d u) = some d.val := by decide +kernel

theorem hexDigitVal_some (c : UInt8) : ∀ v, hexDigitVal c = some v → ∃ (d : Fin 16) (u : Bool), c = hexDigitByte d u ∧ v = d.val := by
  have h : ∀ c : Fin 256, hexDigitVal (UInt8.ofNat c.val) = none ∨
      ∃ (d : Fin 16) (u : Bool), UInt8.ofNat c.val = hexDigitByte d u ∧ hexDigitVal (UInt8.ofNat c.val) = some d.val := by
    decide +kernel
  intro v hv
  have := h ⟨c.toNat, UInt8.toNat_lt c⟩
  simp only [UInt8.ofNat_toNat] at this
  rcases this with h | ⟨d, u, h1, h2⟩
  · rw [hv] at h; cases h
  · rw [hv] at h2; exact ⟨d, u, h1, Option.some.inj h2⟩

theorem isHex_ne_nil {ds : List UInt8} {v : Nat} (h : IsHex ds v) : ds ≠ [] := by
  cases h <;> simp

/-- The value of digits after a number `n`. -/
inductive HexFrom (n : Nat) : List UInt8 → Nat → Prop
  | nil : HexFrom n [] n
  | snoc (ds v) (d : Fin 16) (u : Bool) : HexFrom n ds v → HexFrom n (ds ++ [hexDigitByte d u]) (v * 16 + d.val)

theorem HexFrom.cons {n : Nat} {ds : List UInt8} {v : Nat} (d : Fin 16) (u : Bool) (h : HexFrom (n * 16 + d.val) ds v) :
    HexFrom n (hexDigitByte d u :: ds) v := by
  induction h with
  | nil => exact .snoc [] n d u .nil
  | snoc ds v d' u' _ ih => exact .snoc _ _ d' u' ih

theorem isHex_iff {ds : List UInt8} {v : Nat} : IsHex ds v ↔ ds ≠ [] ∧ HexFrom 0 ds v := by
  constructor
  · intro h
    refine ⟨isHex_ne_nil h, ?_⟩
    induction h with
    | digit d u =>
      have := HexFrom.snoc [] 0 d u (HexFrom.nil (n := 0))
      simpa using this
    | snoc ds v d u _ ih => exact .snoc _ _ d u ih
  · rintro ⟨h0, h⟩
    induction h with
    | nil => exact absurd rfl h0
    | snoc ds v d u hd ih =>
      by_cases hn : ds = []
      · subst hn
        have hv : v = 0 := by
          generalize hx : ([] : List UInt8) = x at hd
          cases hd with
          | nil => rfl
          | snoc a b c d e => exact absurd (congrArg List.length hx) (by simp)
        subst hv
        have := IsHex.digit d u
        simpa using this
      · exact .snoc _ _ _ _ (ih hn)

theorem hexFrom_nil {n v : Nat} (h : HexFrom n [] v) : v = n := by
  generalize hx : ([] : List UInt8) = x at h
  cases h with
  | nil => rfl
  | snoc a b c d e => exact absurd (congrArg List.length hx) (by simp)

/-- From the front. -/
theorem hexFrom_cons {n v : Nat} {c : UInt8} {ds : List UInt8} (h : HexFrom n (c :: ds) v) :
    ∃ (d : Fin 16) (u : Bool), c = hexDigitByte d u ∧ HexFrom (n * 16 + d.val) ds v := by
  generalize hx : c :: ds = x at h
  induction h generalizing ds with
  | nil => cases hx
  | snoc es w d u he ih =>
    cases es with
    | nil =>
      cases hx
      have := hexFrom_nil he
      subst this
      exact ⟨d, u, rfl, .nil⟩
    | cons e es =>
      rw [List.cons_append] at hx
      cases hx
      obtain ⟨d', u', h1, h2⟩ := ih rfl
      exact ⟨d', u', h1, .snoc _ _ _ _ h2⟩

theorem hexFrom_le {n v : Nat} {ds : List UInt8} (h : HexFrom n ds v) : n ≤ v := by
  induction h with
  | nil => exact Nat.le_refl _
  | snoc ds v d u _ ih => omega

theorem parseUintLoop_iff {n : Nat} {ds : List UInt8} (hn : n < 2 ^ 32) : ∀ v, parseUintLoop n ds = some v ↔
    HexFrom n ds v ∧ v < 2 ^ 32 := by
  induction ds generalizing n with
  | nil =>
    intro v
    simp only [parseUintLoop, Option.some.injEq]
    constructor
    · rintro rfl; exact ⟨.nil, hn⟩
    · rintro ⟨h, _⟩; exact (hexFrom_nil h).symm
  | cons c ds ih =>
    intro v
    unfold parseUintLoop
    cases hc : hexDigitVal c with
    | none =>
      simp only
      refine ⟨fun h => (nomatch h), ?_⟩
      rintro ⟨h, _⟩
      obtain ⟨d, u, rfl, _⟩ := hexFrom_cons h
      rw [hexDigitVal_byte] at hc
      cases hc
    | some x =>
      obtain ⟨d, u, rfl, rfl⟩ := hexDigitVal_some c x hc
      simp only
      split
      · refine ⟨fun h => (nomatch h), ?_⟩
        rintro ⟨h, hv⟩
        obtain ⟨d', u', he, h⟩ := hexFrom_cons h
        have := hexFrom_le h
        have e2 := hexDigitVal_byte d u
        rw [he, hexDigitVal_byte] at e2
        have e3 : d'.val = d.val := Option.some.inj e2
        omega
      · rw [ih (by omega)]
        constructor
        · rintro ⟨h, hv⟩; exact ⟨h.cons d u, hv⟩
        · rintro ⟨h, hv⟩
          obtain ⟨d', u', he, h⟩ := hexFrom_cons h
          have e2 := hexDigitVal_byte d u
          rw [he, hexDigitVal_byte] at e2
          have e3 : d'.val = d.val := Option.some.inj e2
          rw [← e3]
          exact ⟨h, hv⟩

/-- ParseUint accepts exactly the hexadecimal numerals below 2^32. -/
theorem ParseUint_iff {ds : List UInt8} {v : Nat} : ParseUint ds = some v ↔ IsHex ds v ∧ v < 2 ^ 32 := by
  unfold ParseUint
  rw [isHex_iff]
  split
  · next h => exact ⟨fun h => (nomatch h), fun h' => absurd h h'.1.1⟩
  · next h => rw [parseUintLoop_iff (by decide)]; exact ⟨fun h' => ⟨⟨h, h'.1⟩, h'.2⟩, fun h' => ⟨h'.1.2, h'.2⟩⟩

theorem hexDigitByte_ne (c : UInt8) (hc : hexDigitVal c = none) : ∀ (d : Fin 16) (u : Bool), hexDigitByte d u ≠ c := by
  intro d u he
  rw [← he, hexDigitVal_byte] at hc
  cases hc

theorem isHex_notMem {c : UInt8} (hc : hexDigitVal c = none) {ds : List UInt8} {v : Nat} (h : IsHex ds v) : c ∉ ds := by
  induction h with
  | digit d u => simp only [List.mem_singleton]; exact fun e => hexDigitByte_ne c hc d u e.symm
  | snoc ds v d u _ ih =>
    rw [List.mem_append]
    rintro (h | h)
    · exact ih h
    · exact hexDigitByte_ne c hc d u (List.mem_singleton.mp h).symm

end Textseg
