import Verif.Spec.Segmentation
/-!
# Lemmas about segmentations
-/

namespace Textseg
open Spec

variable {α β : Type}

theorem isSegmentation_nil (B : List α → List α → Prop) : IsSegmentation B [] [] where
  concat := rfl
  nonempty := by simp
  cuts := by
    intro before after h h1 h2
    cases before with
    | nil => exact absurd rfl h1
    | cons x before => cases h

/-- Prepending a segment. -/
theorem isSegmentation_cons {B : List α → List α → Prop} {c rest : List α} {segs : List (List α)} (hc : c ≠ [])
    (hin : ∀ c1 c2, c = c1 ++ c2 → c1 ≠ [] → c2 ≠ [] → ¬ B c1 (c2 ++ rest))
    (hout : rest ≠ [] → B c rest)
    (h : IsSegmentation (fun b a => B (c ++ b) a) rest segs) : IsSegmentation B (c ++ rest) (c :: segs) where
  concat := by rw [List.flatten_cons, h.concat]
  nonempty := by simpa using ⟨hc, h.nonempty⟩
  cuts := by
    intro before after he hb ha
    rcases List.append_eq_append_iff.mp he with ⟨x, h1, h2⟩ | ⟨x, h1, h2⟩
    · -- before = c ++ x
      subst h1
      by_cases hx : x = []
      · subst hx
        rw [List.append_nil]
        simp only [List.nil_append] at h2
        exact ⟨fun _ => ⟨1, by simp⟩, fun _ => h2 ▸ hout (h2 ▸ ha)⟩
      · rw [show B (c ++ x) after ↔ _ from h.cuts x after h2 hx ha]
        constructor
        · rintro ⟨k, hk⟩
          exact ⟨k + 1, by rw [List.take_succ_cons, List.flatten_cons, ← hk]⟩
        · rintro ⟨k, hk⟩
          cases k with
          | zero => simp at hk; exact absurd hk.1 hc
          | succ k =>
            rw [List.take_succ_cons, List.flatten_cons] at hk
            exact ⟨k, List.append_cancel_left hk⟩
    · -- c = before ++ x
      subst h1
      by_cases hx : x = []
      · subst hx
        simp only [List.append_nil, List.nil_append] at *
        exact ⟨fun _ => ⟨1, by simp⟩, fun _ => h2 ▸ hout (h2 ▸ ha)⟩
      · constructor
        · intro hB
          exact absurd (h2 ▸ hB) (hin before x rfl hb hx)
        · rintro ⟨k, hk⟩
          cases k with
          | zero => simp at hk; exact absurd hk hb
          | succ k =>
            rw [List.take_succ_cons, List.flatten_cons] at hk
            have := congrArg List.length hk
            simp only [List.length_append] at this
            exact absurd (List.eq_nil_of_length_eq_zero (by omega)) hx

/-- There is at most one segmentation. -/
theorem isSegmentation_unique {B : List α → List α → Prop} {text : List α} {s t : List (List α)}
    (hs : IsSegmentation B text s) (ht : IsSegmentation B text t) : s = t := by
  have hcut : ∀ before after, text = before ++ after → before ≠ [] → after ≠ [] →
      ((∃ k, before = (s.take k).flatten) ↔ ∃ k, before = (t.take k).flatten) :=
    fun b a h1 h2 h3 => (hs.cuts b a h1 h2 h3).symm.trans (ht.cuts b a h1 h2 h3)
  have hs1 := hs.concat
  have ht1 := ht.concat
  have hs2 := hs.nonempty
  have ht2 := ht.nonempty
  clear hs ht
  induction s generalizing t text with
  | nil =>
    cases t with
    | nil => rfl
    | cons x t =>
      rw [← hs1] at ht1
      simp at ht1
      exact absurd ht1.1 (ht2 x (by simp))
  | cons a s ih =>
    cases t with
    | nil =>
      rw [← ht1] at hs1
      simp at hs1
      exact absurd hs1.1 (hs2 a (by simp))
    | cons b t =>
      rw [List.flatten_cons] at hs1 ht1
      have ha : a ≠ [] := hs2 a (by simp)
      have hb : b ≠ [] := ht2 b (by simp)
      have hab : a = b := by
        have e := hs1.trans ht1.symm
        rcases List.append_eq_append_iff.mp e with ⟨x, h1, h2⟩ | ⟨x, h1, h2⟩
        · by_cases hx : x = []
          · rw [h1, hx, List.append_nil]
          · exfalso
            obtain ⟨k, hk⟩ := (hcut a s.flatten hs1.symm ha (by rw [h2]; simp [hx])).mp ⟨1, by simp⟩
            cases k with
            | zero => simp at hk; exact ha hk
            | succ k =>
              rw [List.take_succ_cons, List.flatten_cons, h1] at hk
              have := congrArg List.length hk
              have h0 : x.length ≠ 0 := fun h => hx (List.eq_nil_of_length_eq_zero h)
              simp only [List.length_append] at this
              omega
        · by_cases hx : x = []
          · rw [h1, hx, List.append_nil]
          · exfalso
            obtain ⟨k, hk⟩ := (hcut b t.flatten ht1.symm hb (by rw [h2]; simp [hx])).mpr ⟨1, by simp⟩
            cases k with
            | zero => simp at hk; exact hb hk
            | succ k =>
              rw [List.take_succ_cons, List.flatten_cons, h1] at hk
              have := congrArg List.length hk
              have h0 : x.length ≠ 0 := fun h => hx (List.eq_nil_of_length_eq_zero h)
              simp only [List.length_append] at this
              omega
      subst hab
      have e := List.append_cancel_left (hs1.trans ht1.symm)
      rw [ih (text := s.flatten) (t := t) ?_ rfl e.symm (fun x hx => hs2 x (by simp [hx])) (fun x hx => ht2 x (by simp [hx]))]
      intro before after h1 h2 h3
      have := hcut (a ++ before) after (by rw [← hs1, h1, List.append_assoc]) (by simp [ha]) h3
      have aux : ∀ u : List (List α), (∃ k, a ++ before = ((a :: u).take k).flatten) ↔ ∃ k, before = (u.take k).flatten := by
        intro u
        constructor
        · rintro ⟨k, hk⟩
          cases k with
          | zero => simp at hk; exact absurd hk.1 ha
          | succ k =>
            rw [List.take_succ_cons, List.flatten_cons] at hk
            exact ⟨k, List.append_cancel_left hk⟩
        · rintro ⟨k, hk⟩
          exact ⟨k + 1, by rw [List.take_succ_cons, List.flatten_cons, ← hk]⟩
      rw [aux, aux] at this
      exact this

theorem flatten_eq_map (f : α → β) (segs : List (List β)) (cs : List α) (h : segs.flatten = cs.map f) :
    ∃ segs' : List (List α), segs = segs'.map (List.map f) ∧ segs'.flatten = cs := by
  induction segs generalizing cs with
  | nil =>
    have : cs = [] := List.map_eq_nil_iff.mp h.symm
    exact ⟨[], rfl, this.symm⟩
  | cons s segs ih =>
    rw [List.flatten_cons] at h
    obtain ⟨c1, c2, h1, h2, h3⟩ := List.append_eq_map_iff.mp h
    obtain ⟨segs', h4, h5⟩ := ih c2 h3.symm
    exact ⟨c1 :: segs', by rw [List.map_cons, ← h2, ← h4], by rw [List.flatten_cons, h5, h1]⟩

theorem flatten_map_map (f : α → β) (segs : List (List α)) : (segs.map (List.map f)).flatten = segs.flatten.map f := by
  induction segs with
  | nil => rfl
  | cons s segs ih => rw [List.map_cons, List.flatten_cons, List.flatten_cons, List.map_append, ih]

/-- Transport of a segmentation along an injection. -/
theorem isSegmentation_of_map {f : α → β} (hf : ∀ x y, f x = f y → x = y) {B : List β → List β → Prop} {cs : List α}
    {segs : List (List β)} (h : IsSegmentation B (cs.map f) segs) :
    ∃ segs' : List (List α), segs = segs'.map (List.map f) ∧
      IsSegmentation (fun b a => B (b.map f) (a.map f)) cs segs' := by
  obtain ⟨segs', h1, h2⟩ := flatten_eq_map f segs cs h.concat
  subst h1
  have hinj : ∀ x y : List α, x.map f = y.map f → x = y := fun x y => (List.map_inj_right (fun a b => hf a b)).mp
  refine ⟨segs', rfl, h2, ?_, ?_⟩
  · intro s hs he
    exact h.nonempty (s.map f) (List.mem_map_of_mem hs) (by simp [he])
  · intro before after he hb ha
    rw [h.cuts (before.map f) (after.map f) (by rw [he, List.map_append]) (by simpa using hb) (by simpa using ha)]
    constructor
    · rintro ⟨k, hk⟩
      rw [← List.map_take, flatten_map_map] at hk
      exact ⟨k, hinj _ _ hk⟩
    · rintro ⟨k, hk⟩
      exact ⟨k, by rw [← List.map_take, flatten_map_map, hk]⟩

/-- Replacing the boundary predicate by an equivalent one. -/
theorem isSegmentation_congr {B B' : List α → List α → Prop} {text : List α} {segs : List (List α)}
    (h : ∀ b a, text = b ++ a → b ≠ [] → a ≠ [] → (B b a ↔ B' b a)) (hs : IsSegmentation B text segs) :
    IsSegmentation B' text segs where
  concat := hs.concat
  nonempty := hs.nonempty
  cuts b a h1 h2 h3 := by rw [← h b a h1 h2 h3]; exact hs.cuts b a h1 h2 h3

theorem flatten_take_le {segs : List (List α)} {j k : Nat} (h : j ≤ k) :
    (segs.take j).flatten.length ≤ (segs.take k).flatten.length := by
  have : segs.take j = (segs.take k).take j := by rw [List.take_take]; congr 1; omega
  rw [this]
  have e : (segs.take k).flatten = ((segs.take k).take j).flatten ++ ((segs.take k).drop j).flatten := by
    rw [← List.flatten_append, List.take_append_drop]
  have := congrArg List.length e
  rw [List.length_append] at this
  omega

/-- No boundary inside a segment. -/
theorem isSegmentation_inner {B : List α → List α → Prop} {text : List α} {s1 s2 : List (List α)} {u v : List α}
    (h : IsSegmentation B text (s1 ++ (u ++ v) :: s2)) (hu : u ≠ []) (hv : v ≠ []) :
    ¬ B (s1.flatten ++ u) (v ++ s2.flatten) := by
  rw [h.cuts _ _ (by rw [← h.concat]; simp) (by simp [hu]) (by simp [hv])]
  rintro ⟨k, hk⟩
  have hl := congrArg List.length hk
  have hu := List.length_pos_iff.mpr hu
  have hv := List.length_pos_iff.mpr hv
  rw [List.length_append] at hl
  by_cases hks : k ≤ s1.length
  · have := flatten_take_le (segs := s1 ++ (u ++ v) :: s2) hks
    rw [List.take_left] at this
    omega
  · have := flatten_take_le (segs := s1 ++ (u ++ v) :: s2) (j := s1.length + 1) (k := k) (by omega)
    rw [List.take_append, List.take_of_length_le (by omega), Nat.add_sub_cancel_left] at this
    simp only [List.take_succ_cons, List.take_zero, List.flatten_append, List.flatten_cons, List.flatten_nil,
      List.append_nil, List.length_append] at this
    omega

end Textseg
