import Verif.Proofs.GenCorrect
/-!
# The result of the compaction, read as `LookupFirstChar` reads it
-/

namespace Textseg.Gen
open Textseg Spec

theorem Inv.down {t IB PB F} (h : Inv t IB PB F) (s : List Nat) : ∀ p, p ++ s ∈ IB → p ∈ IB := by
  induction s with
  | nil => intro p hp; simpa using hp
  | cons x s ih =>
    intro p hp
    exact h.parentI p x (ih (p ++ [x]) (by simpa using hp))

theorem Inv.downP {t IB PB F} (h : Inv t IB PB F) {k : Nat} (hk : k ∈ PB) (h2 : 2 ≤ k) {p s : List Nat} (hs : s ≠ [])
    (e : pathOf k = p ++ s) : p ∈ IB := by
  have e' : p ++ s = (p ++ s.dropLast) ++ [s.getLast hs] := by
    rw [List.append_assoc, List.dropLast_concat_getLast]
  rw [e'] at e
  exact h.down _ _ (h.parentP _ _ _ hk h2 e)

theorem leaf_zero {t IB PB F} (h : Inv t IB PB F) {p : List Nat} (hn : ∀ k ∈ PB, 2 ≤ k → pathOf k ≠ p) :
    leafF F p = List.replicate 64 0 := by
  unfold leafF
  cases hk : kOf p with
  | none => rfl
  | some k =>
    obtain ⟨h2, hlt, e⟩ := kOf_some hk
    have hnot : k ∉ PB := fun hm => hn k hm h2 e
    show (List.range 64).map _ = _
    apply List.ext_getElem?
    intro j
    by_cases hj : j < 64
    · simp only [List.getElem?_map, List.getElem?_range hj, Option.map_some]
      rw [h.rest _ (by rw [show (64 * k + j) / 64 = k by omega]; exact hnot), List.getElem?_replicate, if_pos hj]
    · rw [List.getElem?_eq_none (by simp; omega), List.getElem?_eq_none (by simp; omega)]

/-- A path without characters. -/
theorem leaf_63 (F : Nat → UInt8) (s : List Nat) : leafF F ([63] ++ s) = List.replicate 64 0 := by
  unfold leafF
  have : kOf ([63] ++ s) = none := by
    cases hk : kOf ([63] ++ s) with
    | none => rfl
    | some k =>
      obtain ⟨_, hlt, e⟩ := kOf_some hk
      rcases pathOf_cases k with ⟨_, e1⟩ | ⟨_, _, e1⟩ | ⟨_, e1⟩ <;> rw [e1] at e <;> simp at e <;> omega
  rw [this]

def reps0 (PB : List Nat) : List (List Nat) := [63] :: (PB.drop 2).map pathOf
def reps1 (IB : List (List Nat)) : List (List Nat) := [63] :: IB.drop 1

def combos0 (PB : List Nat) : List Combo :=
  (reps0 PB).map (Combo.mk 0 .propMap .indexMap) ++ (reps0 PB).map (Combo.mk 0 .indexMap .propMap)
def combos1 (IB : List (List Nat)) : List Combo :=
  (reps1 IB).map (Combo.mk 1 .propMap .indexMap) ++ (reps1 IB).map (Combo.mk 1 .indexMap .propMap) ++
    (reps1 IB).map (Combo.mk 2 .indexMap .propMap)

theorem mem_drop_of_ne {α : Type} {l : List α} {n : Nat} {a : α} (ha : a ∈ l) (hn : ∀ i, i < n → l[i]? ≠ some a) :
    a ∈ l.drop n := by
  obtain ⟨i, hi⟩ := List.getElem?_of_mem ha
  by_cases h : i < n
  · exact absurd hi (hn i h)
  · apply List.mem_of_getElem? (i := i - n)
    rw [List.getElem?_drop, show n + (i - n) = i by omega]
    exact hi

theorem same0 {t IB PB F} (h : Inv t IB PB F) (p : List Nat) : ∃ r ∈ reps0 PB, SameTree (leafF F) 0 p r := by
  by_cases hn : ∃ k ∈ PB, 2 ≤ k ∧ pathOf k = p
  · obtain ⟨k, hk, h2, e⟩ := hn
    refine ⟨p, ?_, fun _ _ => rfl⟩
    refine List.mem_cons_of_mem _ (List.mem_map.mpr ⟨k, ?_, e⟩)
    apply mem_drop_of_ne hk
    intro i hi hh
    have := (h.two_le hh).mpr h2
    omega
  · refine ⟨[63], List.mem_cons_self .., ?_⟩
    intro s hs
    have : s = [] := List.length_eq_zero_iff.mp hs
    subst this
    rw [leaf_63, List.append_nil]
    exact leaf_zero h (fun k hk h2 e => hn ⟨k, hk, h2, e⟩)

theorem same1 {t IB PB F} (h : Inv t IB PB F) {n : Nat} (hn : 0 < n) {p : List Nat} (hp : p ≠ []) :
    ∃ r ∈ reps1 IB, SameTree (leafF F) n p r := by
  by_cases hm : p ∈ IB
  · refine ⟨p, ?_, fun _ _ => rfl⟩
    refine List.mem_cons_of_mem _ ?_
    apply mem_drop_of_ne hm
    intro i hi hh
    have : i = 0 := by omega
    subst this
    rw [h.head] at hh
    simp at hh
    exact hp hh
  · refine ⟨[63], List.mem_cons_self .., ?_⟩
    intro s hs
    rw [leaf_63]
    apply leaf_zero h
    intro k hk h2 e
    exact hm (h.downP hk h2 (by rintro rfl; simp at hs; omega) e)

theorem covers {t IB PB F} (h : Inv t IB PB F) : Covers (leafF F) (combos0 PB) (combos1 IB) where
  leaf := by
    intro pw iw p hne
    obtain ⟨r, h1, h2⟩ := same0 h p
    refine ⟨r, h2, ?_⟩
    unfold combos0
    cases pw <;> cases iw
    · exact absurd rfl hne
    · exact List.mem_append_left _ (List.mem_map.mpr ⟨r, h1, rfl⟩)
    · exact List.mem_append_right _ (List.mem_map.mpr ⟨r, h1, rfl⟩)
    · exact absurd rfl hne
  one := by
    intro pw iw p hne hp
    obtain ⟨r, h1, h2⟩ := same1 h (n := 1) (by omega) hp
    refine ⟨r, h2, ?_⟩
    unfold combos1
    refine List.mem_append_left _ ?_
    cases pw <;> cases iw
    · exact absurd rfl hne
    · exact List.mem_append_left _ (List.mem_map.mpr ⟨r, h1, rfl⟩)
    · exact List.mem_append_right _ (List.mem_map.mpr ⟨r, h1, rfl⟩)
    · exact absurd rfl hne
  two := by
    intro p hp
    obtain ⟨r, h1, h2⟩ := same1 h (n := 2) (by omega) hp
    refine ⟨r, h2, ?_⟩
    unfold combos1
    exact List.mem_append_right _ (List.mem_map.mpr ⟨r, h1, rfl⟩)

theorem combos0_length {t IB PB F} (h : Inv t IB PB F) : (combos0 PB).length + 2 = 2 * PB.length := by
  have := (List.getElem?_eq_some_iff.mp h.ascii1).1
  simp [combos0, reps0]
  omega

theorem combos1_length {t IB PB F} (h : Inv t IB PB F) : (combos1 IB).length = 3 * IB.length := by
  have := (List.getElem?_eq_some_iff.mp h.head).1
  simp [combos1, reps1]
  omega

/-- The state in which the compaction starts. -/
def cinit (F : Nat → UInt8) (cap : Nat) : CState :=
  { props := blockF F 0 ++ blockF F 1, indices := List.replicate 64 0,
    propMap := (BlockMap.put [] (blockF F 0) 0).put (blockF F 1) 1, indexMap := [], root := List.replicate 64 0,
    shared := true, cap := cap }

theorem cinit_get (F cap w key v) (h : ((cinit F cap).getMap w).get key = some v) :
    w = .propMap ∧ ((key = blockF F 1 ∧ v = 1) ∨ (key = blockF F 0 ∧ v = 0 ∧ blockF F 0 ≠ blockF F 1)) := by
  cases w with
  | indexMap => simp [cinit, CState.getMap, BlockMap.get] at h
  | propMap =>
    refine ⟨rfl, ?_⟩
    simp only [cinit, CState.getMap, get_put] at h
    split at h
    · next h1 => left; exact ⟨h1, by simpa using h.symm⟩
    · next h1 =>
      split at h
      · next h2 => right; exact ⟨h2, by simpa using h.symm, fun e => h1 (h2.trans e)⟩
      · simp [BlockMap.get] at h

theorem cinit_sound (F cap) : Sound (cinit F cap) := by
  refine ⟨by simp [cinit, blockF_length], by simp [cinit], by simp [cinit], by simp [cinit], ?_, ?_, .inl rfl⟩
  · intro w key v h
    left
    rcases (cinit_get F cap w key v h).2 with ⟨rfl, rfl⟩ | ⟨rfl, rfl, _⟩
    · refine ⟨blockF_length _ _, ?_⟩
      show slice (blockF F 0 ++ blockF F 1) 1 = _
      exact slice_new (by rw [blockF_length]) (blockF_length _ _)
    · refine ⟨blockF_length _ _, ?_⟩
      show slice (blockF F 0 ++ blockF F 1) 0 = _
      have e : slice (blockF F 0) 0 = blockF F 0 := by
        unfold slice
        rw [Nat.mul_zero, List.drop_zero, List.take_of_length_le (by rw [blockF_length]; omega)]
      rw [slice_append (by rw [e, blockF_length]), e]
  · intro _
    simp [cinit]

theorem cinit_fits {t IB PB F} (h : Inv t IB PB F) (cap) :
    Fits (leafF F) (combos0 PB) (combos1 IB) (128 * PB.length) (64 + 192 * IB.length) (cinit F cap) := by
  have h0 : missing (leafF F) (combos0 PB) (cinit F cap) ≤ (combos0 PB).length := List.countP_le_length
  have h1 : missing (leafF F) (combos1 IB) (cinit F cap) ≤ (combos1 IB).length := List.countP_le_length
  have := combos0_length h
  have := combos1_length h
  refine ⟨?_, ?_⟩
  · have : (cinit F cap).props.length = 128 := by simp [cinit, blockF_length]
    omega
  · have : (cinit F cap).indices.length = 64 := by simp [cinit]
    omega

/-- The state in which the compaction ends. -/
def cfinal (F : Nat → UInt8) (cap : Nat) : CState := croot (leafF F) (List.range 64) (cinit F cap)

theorem Compact_eq {t IB PB F} (h : Inv t IB PB F) (hP : PB.length ≤ 1023) :
    t.Compact = (if (0 : UInt16) ∈ (cfinal F (t.indices.length * 4)).indices
      then .error (.explicit "index entry is zero, which is invalid")
      else .ok { Indices := (cfinal F (t.indices.length * 4)).indices, Properties := (cfinal F (t.indices.length * 4)).props }) := by
  have hp2 := (List.getElem?_eq_some_iff.mp h.ascii1).1
  have hi1 := (List.getElem?_eq_some_iff.mp h.head).1
  have hlenP := h.lenP
  have hlenI := h.lenI
  have b0 : slice t.rawProps 0 = blockF F 0 := by
    unfold blockF
    apply List.ext_getElem?
    intro j
    by_cases hj : j < 64
    · rw [slice_get hj, h.vals 0 0 j h.ascii0 hj]; simp [hj]
    · rw [List.getElem?_eq_none (by unfold slice; rw [List.length_take]; omega), List.getElem?_eq_none (by simp; omega)]
  have b1 : slice t.rawProps 1 = blockF F 1 := by
    unfold blockF
    apply List.ext_getElem?
    intro j
    by_cases hj : j < 64
    · rw [slice_get hj, h.vals 1 1 j h.ascii1 hj]; simp [hj]
    · rw [List.getElem?_eq_none (by unfold slice; rw [List.length_take]; omega), List.getElem?_eq_none (by simp; omega)]
  have g0 : goSliceTo t.rawProps 64 = .ok (blockF F 0) := by
    unfold goSliceTo
    rw [if_pos (by omega), ← b0]
    simp [slice]
  have g1 : goSlice t.rawProps 64 128 = .ok (blockF F 1) := by
    unfold goSlice
    rw [if_pos (by omega), ← b1]
    simp only [slice, Nat.mul_one]
    rw [List.take_drop]
  have g2 : goSliceTo t.rawProps 128 = .ok (blockF F 0 ++ blockF F 1) := by
    unfold goSliceTo
    rw [if_pos (by omega), ← b0, ← b1]
    simp only [slice, Nat.mul_one, Nat.mul_zero, List.drop_zero]
    rw [← List.take_add]
  have g3 : goSliceTo t.indices 64 = .ok (t.indices.take 64) := by
    unfold goSliceTo
    rw [if_pos (by omega)]
  have hlen : (t.indices.take 64).length = 64 := by rw [List.length_take]; omega
  have hr := rootLoop_eq h hP (t.indices.take 64) 0 (cinit F (t.indices.length * 4)) (by omega) (by simp [cinit]) (by
    intro j v hj
    rw [List.getElem?_take] at hj
    split at hj
    · next hj' =>
      obtain ⟨w, hw, hs⟩ := h.slots 0 [] j h.head hj'
      rw [Nat.mul_zero, Nat.zero_add, hj] at hw
      simp only [Option.some.injEq] at hw
      subst hw
      rw [Nat.zero_add]
      exact hs
    · exact absurd hj (by simp))
  rw [hlen, ← List.range_eq_range'] at hr
  unfold Tree.Compact
  simp only [g0, g1, g2, g3, propertyBlockKey_ok (blockF_length F 0), propertyBlockKey_ok (blockF_length F 1), bind, Except.bind]
  simp only [cinit] at hr
  rw [hr]
  rfl

/-- The facts about the final state. -/
structure Final (F : Nat → UInt8) (st : CState) : Prop where
  sound : Sound st
  shared : st.shared = true
  ascii : st.props.take 128 = blockF F 0 ++ blockF F 1
  found : ∀ i, i < 64 → ∃ v, st.indices[i]? = some v ∧ cfind (leafF F) (lev i) .indexMap .propMap st [i] = some v

theorem props_prefix {L} (n pw iw st p) : ∃ l, (cbuild L n pw iw st p).1.props = st.props ++ l := by
  have := cbuild_pres (L := L) (P := fun s => ∃ l, s.props = st.props ++ l) ?_ ?_ n pw iw st p ⟨[], by simp⟩
  · exact this
  · rintro w st' p ⟨l, h⟩
    unfold addLeaf
    split
    · exact ⟨l, h⟩
    · refine ⟨l ++ L p, ?_⟩
      cases w <;> (show st'.props ++ _ = _; rw [h, List.append_assoc])
  · rintro w st' block _ ⟨l, h⟩
    unfold addIndex
    split
    · exact ⟨l, h⟩
    · exact ⟨l, by cases w <;> exact h⟩

theorem croot_props {L} (is : List Nat) : ∀ st, ∃ l, (croot L is st).props = st.props ++ l := by
  induction is with
  | nil => intro st; exact ⟨[], by simp [croot]⟩
  | cons i is ih =>
    intro st
    obtain ⟨l1, h1⟩ := props_prefix (L := L) (lev i) .indexMap .propMap st [i]
    unfold croot
    obtain ⟨l2, h2⟩ := ih (setRootP (cbuild L (lev i) .indexMap .propMap st [i]).1 i
      (cbuild L (lev i) .indexMap .propMap st [i]).2)
    refine ⟨l1 ++ l2, ?_⟩
    rw [h2]
    show (cbuild L (lev i) .indexMap .propMap st [i]).1.props ++ l2 = _
    rw [h1, List.append_assoc]

theorem cfinal_size {t IB PB F} (h : Inv t IB PB F) (cap) :
    (cfinal F cap).props.length ≤ 128 * PB.length ∧ (cfinal F cap).indices.length ≤ 64 + 192 * IB.length := by
  obtain ⟨h1, h2⟩ := croot_fits (leafF_length F) (covers h) (List.range 64) _ (cinit_fits h cap)
  exact ⟨by unfold cfinal; omega, by unfold cfinal; omega⟩

theorem final_of_inv {t IB PB F} (h : Inv t IB PB F) : Final F (cfinal F (t.indices.length * 4)) := by
  obtain ⟨h1, h2⟩ := cfinal_size h (t.indices.length * 4)
  have hI := h.lengthI
  have hP := h.lengthP
  have hi1 := (List.getElem?_eq_some_iff.mp h.head).1
  have hlenI := h.lenI
  have hs : Sound (cfinal F (t.indices.length * 4)) := by
    refine croot_sound (leafF_length F) (List.range 64) (fun i hi => List.mem_range.mp hi) _
      (fun _ => cinit_sound F _) ⟨?_, ?_⟩
    · unfold cfinal at h1; omega
    · unfold cfinal at h2; omega
  have hcap : (cfinal F (t.indices.length * 4)).cap = t.indices.length * 4 := croot_cap _ _
  have hsh : (cfinal F (t.indices.length * 4)).shared = true := by
    rcases hs.capped with h3 | h3
    · exact h3
    · rw [hcap] at h3; omega
  refine ⟨hs, hsh, ?_, ?_⟩
  · obtain ⟨l, hl⟩ := croot_props (L := leafF F) (List.range 64) (cinit F (t.indices.length * 4))
    unfold cfinal
    rw [hl]
    show ((blockF F 0 ++ blockF F 1) ++ l).take 128 = _
    rw [List.take_append_of_le_length (by simp [blockF_length]), List.take_of_length_le (by simp [blockF_length])]
  · intro i hi
    obtain ⟨_, hg⟩ := croot_get (L := leafF F) (List.range 64) (cinit F (t.indices.length * 4)) List.nodup_range
      (fun i hi => by simpa [cinit] using hi)
    obtain ⟨v, e1, e2⟩ := hg i (List.mem_range.mpr hi)
    refine ⟨v, ?_, e2⟩
    have := hs.share hsh
    have e3 := congrArg (·[i]?) this
    simp only [List.getElem?_take, hi, if_true] at e3
    rw [e3]; exact e1

end Textseg.Gen
