import Verif.Model.AutoVersion
/-!
# Properties of the version selection (C37)
-/

namespace Textseg.Props

/-- C37: the two ranges of releases. -/
theorem C37_selected (n : Nat) :
    selected n = if 21 ≤ n ∧ n ≤ 26 then [unicode15] else if n = 27 then [unicode17] else [] := by
  by_cases h : n < 28
  · have key : ∀ m : Fin 28, selected m.val =
        if 21 ≤ m.val ∧ m.val ≤ 26 then [unicode15] else if m.val = 27 then [unicode17] else [] := by decide
    exact key ⟨n, h⟩
  · have h1 : decide (21 ≤ n) = true := decide_eq_true (by omega)
    have h2 : decide (27 ≤ n) = true := decide_eq_true (by omega)
    have h3 : decide (28 ≤ n) = true := decide_eq_true (by omega)
    rw [if_neg (by omega), if_neg (by omega)]
    simp only [selected, versionFiles, List.filter_cons, List.filter_nil, unicode15, unicode17, Constraint.holds, h1, h2, h3]
    rfl

/-- C37: for every release at most one file provides the function (never a duplicate declaration), and one does exactly
for 1.21 to 1.27. -/
theorem C37_exactly_one (n : Nat) : (selected n).length ≤ 1 ∧ ((selected n).length = 1 ↔ 21 ≤ n ∧ n ≤ 27) := by
  rw [C37_selected]
  split
  · simp; omega
  · split
    · simp; omega
    · simp; omega

/-- C37: which implementation is called. -/
theorem C37_implementation (v15 : List UInt8 → Bool → Go SplitResult) (n : Nat) :
    (21 ≤ n ∧ n < 27 → autoScan v15 n = some v15) ∧ (n = 27 → autoScan v15 n = some ScanGraphemeClusters) ∧
    (n < 21 ∨ 27 < n → autoScan v15 n = none) := by
  unfold autoScan
  rw [C37_selected]
  refine ⟨fun h => ?_, fun h => ?_, fun h => ?_⟩
  · rw [if_pos (by omega)]; rfl
  · rw [if_neg (by omega), if_pos h]; rfl
  · rw [if_neg (by omega), if_neg (by omega)]

/-- C37: the reported version belongs to the selected implementation. -/
theorem C37_reported_version (n : Nat) (f : VersionFile) (h : f ∈ selected n) :
    (f.unicodeMajorVersion = 15 ↔ n < 27) ∧ (f.unicodeMajorVersion = 17 ↔ n = 27) := by
  rw [C37_selected] at h
  split at h
  · next h1 => rw [List.mem_singleton.mp h]; simp [unicode15]; omega
  · split at h
    · next h1 => rw [List.mem_singleton.mp h, h1]; simp [unicode17]
    · cases h

/-- C37: the two forms of the constraint in each file agree. -/
theorem C37_both_forms_agree (n : Nat) : ∀ f ∈ versionFiles, f.goBuild.holds n = f.plusBuild.holds n := by
  intro f hf
  simp only [versionFiles, List.mem_cons, List.not_mem_nil, or_false] at hf
  rcases hf with rfl | rfl <;> rfl

example : (selected 26).map (·.unicodeMajorVersion) = [15] ∧ (selected 27).map (·.unicodeMajorVersion) = [17] ∧
    selected 28 = [] ∧ selected 20 = [] := by decide

end Textseg.Props
