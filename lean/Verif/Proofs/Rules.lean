import Verif.Proofs.Machine
/-!
# The five facts decide the rules: `Boundary` equals `brk`
-/

namespace Textseg
open Spec

theorem emo_iff (R : Text) : (flags R).emo = true ↔
    ∃ xs p pre, R = xs ++ p :: pre ∧ p.extPict = true ∧ ∀ x ∈ xs, x.gcb = .Extend := by
  induction R with
  | nil => simp [flags, Flags.init]
  | cons a R ih =>
    simp only [flags, Flags.next, Bool.or_eq_true, Bool.and_eq_true, beq_iff_eq, ih]
    constructor
    · rintro (h | ⟨h, xs, p, pre, rfl, h1, h2⟩)
      · exact ⟨[], a, R, rfl, h, by simp⟩
      · exact ⟨a :: xs, p, pre, rfl, h1, by simpa using ⟨h, h2⟩⟩
    · rintro ⟨xs, p, pre, h1, h2, h3⟩
      cases xs with
      | nil => cases h1; exact Or.inl h2
      | cons x xs =>
        cases h1
        exact Or.inr ⟨h3 _ (by simp), xs, p, pre, rfl, h2, fun y hy => h3 y (by simp [hy])⟩

theorem emoZ_iff (R : Text) : (flags R).emoZ = true ↔
    ∃ z xs p pre, R = z :: xs ++ p :: pre ∧ p.extPict = true ∧ (∀ x ∈ xs, x.gcb = .Extend) ∧ z.gcb = .ZWJ := by
  cases R with
  | nil => simp [flags, Flags.init]
  | cons a R =>
    simp only [flags, Flags.next, Bool.and_eq_true, beq_iff_eq, emo_iff]
    constructor
    · rintro ⟨h, xs, p, pre, rfl, h1, h2⟩
      exact ⟨a, xs, p, pre, rfl, h1, h2, h⟩
    · rintro ⟨z, xs, p, pre, h1, h2, h3, h4⟩
      cases h1
      exact ⟨h4, xs, p, pre, rfl, h2, h3⟩

theorem joiner_iff (x : CharProps) : joiner x = true ↔ x.incb = .Extend ∨ x.incb = .Linker := by
  simp [joiner]

theorem con_iff (R : Text) : (flags R).con = true ↔
    ∃ xs c pre, R = xs ++ c :: pre ∧ c.incb = .Consonant ∧ ∀ x ∈ xs, x.incb = .Extend ∨ x.incb = .Linker := by
  induction R with
  | nil => simp [flags, Flags.init]
  | cons a R ih =>
    simp only [flags, Flags.next, Bool.or_eq_true, Bool.and_eq_true, beq_iff_eq, ih, joiner_iff]
    constructor
    · rintro (h | ⟨h, xs, p, pre, rfl, h1, h2⟩)
      · exact ⟨[], a, R, rfl, h, by simp⟩
      · exact ⟨a :: xs, p, pre, rfl, h1, by simpa using ⟨h, h2⟩⟩
    · rintro ⟨xs, p, pre, h1, h2, h3⟩
      cases xs with
      | nil => cases h1; exact Or.inl h2
      | cons x xs =>
        cases h1
        exact Or.inr ⟨h3 _ (by simp), xs, p, pre, rfl, h2, fun y hy => h3 y (by simp [hy])⟩

theorem lnk_iff (R : Text) : (flags R).lnk = true ↔
    ∃ ys l xs c pre, R = ys ++ l :: (xs ++ c :: pre) ∧ c.incb = .Consonant ∧
      (∀ x ∈ xs, x.incb = .Extend ∨ x.incb = .Linker) ∧ l.incb = .Linker ∧
      (∀ y ∈ ys, y.incb = .Extend ∨ y.incb = .Linker) := by
  induction R with
  | nil => simp [flags, Flags.init]
  | cons a R ih =>
    simp only [flags, Flags.next, Bool.or_eq_true, Bool.and_eq_true, beq_iff_eq, ih, joiner_iff, con_iff]
    constructor
    · rintro (⟨h, xs, c, pre, rfl, h1, h2⟩ | ⟨h, ys, l, xs, c, pre, rfl, h1, h2, h3, h4⟩)
      · exact ⟨[], a, xs, c, pre, rfl, h1, h2, h, by simp⟩
      · exact ⟨a :: ys, l, xs, c, pre, rfl, h1, h2, h3, by simpa using ⟨h, h4⟩⟩
    · rintro ⟨ys, l, xs, c, pre, h1, h2, h3, h4, h5⟩
      cases ys with
      | nil => cases h1; exact Or.inl ⟨h4, xs, c, pre, rfl, h2, h3⟩
      | cons y ys =>
        cases h1
        exact Or.inr ⟨h5 _ (by simp), ys, l, xs, c, pre, rfl, h2, h3, h4, fun y hy => h5 y (by simp [hy])⟩

theorem ri_iff (R : Text) : (flags R).ri = true ↔
    ∃ rs pre, R = rs ++ pre ∧ (∀ r ∈ rs, r.gcb = .RegionalIndicator) ∧ (∃ n, rs.length = 2 * n + 1) ∧
      (∀ c post, pre = c :: post → c.gcb ≠ .RegionalIndicator) := by
  suffices h : (∃ rs pre, R = rs ++ pre ∧ (∀ r ∈ rs, r.gcb = .RegionalIndicator) ∧
      (flags R).ri = (rs.length % 2 == 1) ∧ (∀ c post, pre = c :: post → c.gcb ≠ .RegionalIndicator)) by
    obtain ⟨rs, pre, h1, h2, h3, h4⟩ := h
    rw [h3, beq_iff_eq]
    constructor
    · intro h
      exact ⟨rs, pre, h1, h2, ⟨rs.length / 2, by omega⟩, h4⟩
    · rintro ⟨rs', pre', h1', h2', ⟨n, h3'⟩, h4'⟩
      have : rs = rs' := by
        clear h3 h3'
        subst h1
        induction rs generalizing rs' with
        | nil =>
          cases rs' with
          | nil => rfl
          | cons r rs' => exact absurd (h2' r (by simp)) (h4 r _ h1')
        | cons r rs ih =>
          cases rs' with
          | nil => exact absurd (h2 r (by simp)) (h4' r _ h1'.symm)
          | cons r' rs' =>
            simp only [List.cons_append, List.cons.injEq] at h1'
            rw [h1'.1, ih (fun x hx => h2 x (by simp [hx])) rs' (fun x hx => h2' x (by simp [hx])) h1'.2]
      rw [this]; omega
  induction R with
  | nil => exact ⟨[], [], rfl, by simp, rfl, by simp⟩
  | cons a R ih =>
    obtain ⟨rs, pre, h1, h2, h3, h4⟩ := ih
    by_cases ha : a.gcb = .RegionalIndicator
    · refine ⟨a :: rs, pre, by simp [h1], by simpa using ⟨ha, h2⟩, ?_, h4⟩
      simp only [flags, Flags.next, ha, h3, List.length_cons, beq_self_eq_true, Bool.true_and]
      rcases Nat.mod_two_eq_zero_or_one rs.length with h | h
      · rw [h, show (rs.length + 1) % 2 = 1 by omega]; rfl
      · rw [h, show (rs.length + 1) % 2 = 0 by omega]; rfl
    · refine ⟨[], a :: R, rfl, by simp, ?_, by simpa using ha⟩
      simp [flags, Flags.next, ha]

theorem reverse_eq_append {α : Type} {R a b : List α} : R.reverse = a ++ b ↔ R = b.reverse ++ a.reverse := by
  rw [List.reverse_eq_iff, List.reverse_append]

theorem endsIn_reverse (p : CharProps) (R : Text) (P : CharProps → Prop) : EndsIn (p :: R).reverse P ↔ P p := by
  unfold EndsIn
  constructor
  · rintro ⟨pre, c, h1, h2⟩
    rw [reverse_eq_append] at h1
    simp only [List.reverse_cons, List.reverse_nil, List.nil_append, List.singleton_append, List.cons.injEq] at h1
    rw [h1.1]; exact h2
  · exact fun h => ⟨R.reverse, p, by simp, h⟩

theorem startsWith_cons (n : CharProps) (post : Text) (P : CharProps → Prop) : StartsWith (n :: post) P ↔ P n := by
  unfold StartsWith
  constructor
  · rintro ⟨c, p, h1, h2⟩; cases h1; exact h2
  · exact fun h => ⟨n, post, rfl, h⟩

theorem gb9c_reverse (R : Text) (n : CharProps) (post : Text) :
    GB9c R.reverse (n :: post) ↔ (flags R).lnk = true ∧ n.incb = .Consonant := by
  unfold GB9c
  rw [startsWith_cons, lnk_iff]
  refine and_congr_left fun _ => ?_
  constructor
  · rintro ⟨pre, c, xs, l, ys, h1, h2, h3, h4, h5⟩
    refine ⟨ys.reverse, l, xs.reverse, c, pre.reverse, ?_, h2, by simpa using h3, h4, by simpa using h5⟩
    rw [List.reverse_eq_iff] at h1
    simpa using h1
  · rintro ⟨ys, l, xs, c, pre, h1, h2, h3, h4, h5⟩
    refine ⟨pre.reverse, c, xs.reverse, l, ys.reverse, ?_, h2, by simpa using h3, h4, by simpa using h5⟩
    rw [h1]; simp

theorem gb11_reverse (R : Text) (n : CharProps) (post : Text) :
    GB11 R.reverse (n :: post) ↔ (flags R).emoZ = true ∧ n.extPict = true := by
  unfold GB11
  rw [startsWith_cons, emoZ_iff]
  refine and_congr_left fun _ => ?_
  constructor
  · rintro ⟨pre, p, xs, z, h1, h2, h3, h4⟩
    refine ⟨z, xs.reverse, p, pre.reverse, ?_, h2, by simpa using h3, h4⟩
    rw [List.reverse_eq_iff] at h1
    simpa using h1
  · rintro ⟨z, xs, p, pre, h1, h2, h3, h4⟩
    refine ⟨pre.reverse, p, xs.reverse, z, ?_, h2, by simpa using h3, h4⟩
    rw [h1]; simp

theorem gb1213_reverse (R : Text) (n : CharProps) (post : Text) :
    (GB12 R.reverse (n :: post) ∨ GB13 R.reverse (n :: post)) ↔
      (flags R).ri = true ∧ n.gcb = .RegionalIndicator := by
  unfold GB12 GB13
  rw [startsWith_cons, ri_iff]
  constructor
  · rintro (⟨h1, h2, h3⟩ | ⟨⟨pre, c, rs, h1, h2, h3, h4⟩, h5⟩)
    · exact ⟨⟨R, [], by simp, by simpa using h2, by simpa using h1, by simp⟩, h3⟩
    · refine ⟨⟨rs.reverse, c :: pre.reverse, ?_, by simpa using h4, by simpa using h3, ?_⟩, h5⟩
      · rw [List.reverse_eq_iff] at h1
        simpa using h1
      · intro c' post h
        cases h; exact h2
  · rintro ⟨⟨rs, pre, h1, h2, h3, h4⟩, h5⟩
    cases pre with
    | nil => exact Or.inl ⟨by rw [h1]; simpa using h3, by rw [h1]; simpa using h2, h5⟩
    | cons c pre =>
      refine Or.inr ⟨⟨pre.reverse, c, rs.reverse, by rw [h1]; simp, h4 c pre rfl, by simpa using h3, by simpa using h2⟩, h5⟩

theorem isCtl_iff (x : CharProps) : isCtl x = true ↔ x.isControl := by
  simp [isCtl, CharProps.isControl, or_assoc]

/-- The rules of UAX #29 are decided by the facts. -/
theorem boundary_iff (R : Text) (n : CharProps) (post : Text) :
    Boundary R.reverse (n :: post) ↔ brk R n = true := by
  cases R with
  | nil => simp [Boundary, GB1, brk]
  | cons p R =>
    unfold Boundary
    rw [gb1213_reverse, gb9c_reverse, gb11_reverse]
    unfold GB1 GB2 GB3 GB4 GB5 GB6 GB7 GB8 GB9 GB9a GB9b
    simp only [endsIn_reverse, startsWith_cons, brk, breakB]
    generalize flags (p :: R) = f
    simp only [List.reverse_eq_nil_iff, reduceCtorEq, false_and, and_false, false_or,
      Bool.and_eq_true, Bool.or_eq_true, Bool.not_eq_true', Bool.or_eq_false_iff, Bool.and_eq_false_iff,
      beq_eq_false_iff_ne, ← isCtl_iff]
    cases h : isCtl p <;> cases h' : isCtl n <;> simp <;> grind

end Textseg
