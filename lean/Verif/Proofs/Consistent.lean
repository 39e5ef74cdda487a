import Verif.Proofs.Lookup
import Verif.Spec.Consistent
/-!
# The shipped data files are consistent
-/

namespace Textseg
open Spec

instance (p : CharProps) : Decidable p.Consistent :=
  decidable_of_iff ((p.extPict = true → p.gcb = .Other ∧ p.incb = .None) ∧ (p.incb = .Consonant → p.gcb = .Other) ∧
      (p.incb = .Extend ∨ p.incb = .Linker → p.gcb = .Extend ∨ p.gcb = .ZWJ))
    ⟨fun h => ⟨h.1, h.2.1, h.2.2⟩, fun h => ⟨h.1, h.2, h.3⟩⟩

/-- The consistent combinations. -/
def consistentList : List CharProps :=
  ([.Other, .CR, .LF, .Control, .Extend, .ZWJ, .RegionalIndicator, .Prepend, .SpacingMark, .L, .V, .T, .LV, .LVT] :
    List GCB).map (⟨·, false, .None⟩) ++
  [⟨.Other, true, .None⟩, ⟨.Other, false, .Consonant⟩, ⟨.Extend, false, .Extend⟩, ⟨.Extend, false, .Linker⟩,
   ⟨.ZWJ, false, .Extend⟩, ⟨.ZWJ, false, .Linker⟩]

theorem mem_consistentList {p : CharProps} (h : p.Consistent) : p ∈ consistentList := by
  obtain ⟨g, e, i⟩ := p
  revert h
  cases g <;> cases e <;> cases i <;> decide

def allConsonant : List (Nat × Nat × InCB) → Bool
  | [] => true
  | (_, _, .Consonant) :: r => allConsonant r
  | _ => false

def isMark : GCB → Bool
  | .Extend => true
  | .ZWJ => true
  | _ => false

/-- A sufficient condition for consistency of all code points between `lo` and `hi`. -/
def fineHere (lo hi : Nat) : List (Nat × Nat × GCB) → List (Nat × Nat × Unit) → List (Nat × Nat × InCB) → Bool
  | _, [], [] => true
  | [], _, [] => true
  | [], [], I => allConsonant I
  | (a, b, v) :: _, [], I =>
    cond (Nat.ble a lo) (cond (Nat.ble hi b) (cond (isMark v) (noConsonant I) false) false) false
  | _, _, _ => false
where noConsonant : List (Nat × Nat × InCB) → Bool
  | [] => true
  | (_, _, .Consonant) :: _ => false
  | _ :: r => noConsonant r

/-- Checks the `2^d` code points from `k` on. -/
def consNode : (d k : Nat) → List (Nat × Nat × GCB) → List (Nat × Nat × Unit) → List (Nat × Nat × InCB) → Bool
  | 0, k, G, E, I => fineHere k k G E I
  | d + 1, k, G, E, I =>
    cond (fineHere k (Nat.pred (Nat.add k (Nat.pow 2 (Nat.succ d)))) G E I) true
      (cond (consNode d k (restrict k (Nat.pred (Nat.add k (Nat.pow 2 d))) G)
          (restrict k (Nat.pred (Nat.add k (Nat.pow 2 d))) E) (restrict k (Nat.pred (Nat.add k (Nat.pow 2 d))) I))
        (consNode d (Nat.add k (Nat.pow 2 d))
          (restrict (Nat.add k (Nat.pow 2 d)) (Nat.pred (Nat.add k (Nat.pow 2 (Nat.succ d)))) G)
          (restrict (Nat.add k (Nat.pow 2 d)) (Nat.pred (Nat.add k (Nat.pow 2 (Nat.succ d)))) E)
          (restrict (Nat.add k (Nat.pow 2 d)) (Nat.pred (Nat.add k (Nat.pow 2 (Nat.succ d)))) I))
        false)

theorem allConsonant_sound (c : Nat) (I : List (Nat × Nat × InCB)) (h : allConsonant I = true) :
    lookupRange c I = none ∨ lookupRange c I = some .Consonant := by
  induction I with
  | nil => exact Or.inl rfl
  | cons r I ih =>
    obtain ⟨a, b, v⟩ := r
    cases v <;> simp only [allConsonant, Bool.false_eq_true] at h
    simp only [lookupRange]
    split
    · exact Or.inr rfl
    · exact ih h

theorem noConsonant_sound (c : Nat) (I : List (Nat × Nat × InCB)) (h : fineHere.noConsonant I = true) :
    lookupRange c I ≠ some .Consonant := by
  induction I with
  | nil => simp [lookupRange]
  | cons r I ih =>
    obtain ⟨a, b, v⟩ := r
    cases v <;> simp only [fineHere.noConsonant, Bool.false_eq_true] at h
    all_goals
      simp only [lookupRange]
      split
      · simp
      · exact ih h

theorem fineHere_sound (lo hi c : Nat) (h1 : lo ≤ c) (h2 : c ≤ hi) (G E I) (h : fineHere lo hi G E I = true) :
    (mkProps (lookupRange c G) (lookupRange c E) (lookupRange c I)).Consistent := by
  unfold fineHere at h
  split at h
  · simp only [lookupRange]; constructor <;> simp [mkProps]
  · simp only [lookupRange]; constructor <;> simp [mkProps]
  · simp only [lookupRange]
    rcases allConsonant_sound c _ h with h | h <;> rw [h] <;> constructor <;> simp [mkProps]
  · rename_i a b v _ _
    cases ha : Nat.ble a lo
    · rw [ha] at h; cases h
    · cases hb : Nat.ble hi b
      · rw [ha, hb] at h; cases h
      · cases hv : isMark v
        · rw [ha, hb, hv] at h; cases h
        · rw [ha, hb, hv] at h
          simp only [cond_true] at h
          have := noConsonant_sound c _ h
          have ha := Nat.ble_eq.mp ha
          have hb := Nat.ble_eq.mp hb
          simp only [lookupRange]
          rw [if_pos (by omega)]
          cases v <;> first | cases hv | skip
          all_goals
            generalize lookupRange c _ = x at *
            rcases x with _ | x
            · constructor <;> simp [mkProps]
            · cases x <;> first | exact absurd rfl this | (constructor <;> simp [mkProps])
  · cases h

theorem consNode_sound (d k : Nat) (G E I) (h : consNode d k G E I = true) (c : Nat) (h1 : k ≤ c) (h2 : c < k + 2 ^ d) :
    (mkProps (lookupRange c G) (lookupRange c E) (lookupRange c I)).Consistent := by
  induction d generalizing k G E I with
  | zero =>
    simp only [consNode] at h
    exact fineHere_sound k k c h1 (by omega) G E I h
  | succ d ih =>
    simp only [consNode] at h
    have hp1 : ∀ x : Nat, 0 < 2 ^ x := Nat.two_pow_pos
    have h2p : 2 ^ (d + 1) = 2 ^ d + 2 ^ d := by omega
    cases hf : fineHere k (Nat.pred (Nat.add k (Nat.pow 2 (Nat.succ d)))) G E I
    · rw [hf, cond_false, Bool.cond_eq_ite] at h
      split at h
      · next h' =>
        by_cases hc : c < k + 2 ^ d
        · have hv := ih k _ _ _ h' h1 hc
          have hp : c ≤ Nat.pred (Nat.add k (Nat.pow 2 d)) := by
            show c ≤ k + 2 ^ d - 1; omega
          rwa [lookupRange_restrict h1 hp, lookupRange_restrict h1 hp, lookupRange_restrict h1 hp] at hv
        · have hm : Nat.add k (Nat.pow 2 d) ≤ c := by show k + 2 ^ d ≤ c; omega
          have hv := ih _ _ _ _ h hm (by show c < k + 2 ^ d + 2 ^ d; omega)
          have hp : c ≤ Nat.pred (Nat.add k (Nat.pow 2 (Nat.succ d))) := by
            show c ≤ k + 2 ^ (d + 1) - 1; omega
          rwa [lookupRange_restrict hm hp, lookupRange_restrict hm hp, lookupRange_restrict hm hp] at hv
      · cases h
    · refine fineHere_sound _ _ c h1 ?_ G E I hf
      show c ≤ k + 2 ^ (d + 1) - 1
      omega

theorem consistent_check :
    consNode 21 0 graphemeBreakProperty extendedPictographic indicConjunctBreak = true := by decide +kernel

/-- The shipped data files are consistent. -/
theorem ucd_consistent (c : Nat) : (ucd c).Consistent := by
  by_cases h : c < 0x110000
  · exact consNode_sound 21 0 _ _ _ consistent_check c (by omega) (by omega)
  · rw [ucd_big c (by omega)]; decide

theorem seqProps_consistent (bs : List UInt8) : (seqProps bs).Consistent := by
  unfold seqProps
  split
  · exact ucd_consistent _
  · decide

end Textseg
