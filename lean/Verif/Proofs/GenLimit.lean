import Verif.Proofs.GenResult
/-!
# Too many property blocks

The arithmetic of `buildCompactedBlocks` is that of uint16, so that the 1024th property block cannot be read: compaction of
a tree with so many blocks panics.
-/

namespace Textseg.Gen
open Textseg Spec

theorem fillBlock_all {f : CState → UInt16 → Go (CState × UInt16)} (bs : List UInt16) : ∀ {st : CState} {r},
    fillBlock f st bs = .ok r → ∀ v ∈ bs, ∃ st' r', f st' v = .ok r' := by
  induction bs with
  | nil => intro st r _ v hv; exact absurd hv (by simp)
  | cons b bs ih =>
    intro st r h v hv
    unfold fillBlock at h
    cases hb : f st b with
    | error e => rw [hb] at h; exact absurd h (by simp [bind, Except.bind])
    | ok r1 =>
      obtain ⟨st1, v1⟩ := r1
      rw [hb] at h
      simp only [bind, Except.bind] at h
      rcases List.mem_cons.mp hv with e | hv
      · subst e; exact ⟨st, _, hb⟩
      · cases hr : fillBlock f st1 bs with
        | error e => rw [hr] at h; exact absurd h (by simp)
        | ok r2 => exact ih hr v hv

theorem srcBlock_1023 {α : Type} (zero : α) (blocks : List α) (v : UInt16) (h : v.toNat = 1023) :
    srcBlock zero blocks v = .error .sliceOutOfRange := by
  have : v = 1023 := UInt16.toNat_inj.mp h
  subst this
  unfold srcBlock
  rw [if_neg (by decide)]
  simp only
  unfold goSlice
  rw [if_neg]
  intro hh
  exact absurd hh.1 (by decide)

theorem walk_fails {t IB PB F} (h : Inv t IB PB F) {k : Nat} (hk : PB[1023]? = some k) : ∀ (s : List Nat) (p : List Nat)
    (v : UInt16) (pw iw : Which) (st : CState) (r), p ≠ [] → pathOf k = p ++ s → (∀ d ∈ s, d < 64) →
    SlotOK IB PB p v.toNat → build t s.length pw iw st v ≠ .ok r := by
  have hk2 : 2 ≤ k := (h.two_le hk).mp (by omega)
  have hkm := List.mem_of_getElem? hk
  have hklt := h.rangeP k hkm
  intro s
  induction s with
  | nil =>
    intro p v pw iw st r _ e _ hs hb
    rw [List.append_nil] at e
    rw [← e] at hs
    rcases hs.path h with ⟨_, h1⟩ | ⟨_, _, h1⟩
    · exact h1 hk2 hkm
    · have := (List.getElem?_inj (List.getElem?_eq_some_iff.mp h1).1 h.nodupP).mp (h1.trans hk.symm)
      unfold build buildLeaf at hb
      rw [List.length_nil] at hb
      simp only [srcBlock_1023 _ _ v this, bind, Except.bind] at hb
      exact absurd hb (by simp)
  | cons d s ih =>
    intro p v pw iw st r hp e hd hs hb
    have hI : p ∈ IB := h.downP hkm hk2 (by simp) e
    have hsp : StrictPrefix p := ⟨k, d, s, hk2, hklt, e⟩
    have hv : IB[v.toNat]? = some p := by
      rcases hs with ⟨_, h1, _⟩ | h1 | ⟨k', _, _, e'⟩
      · exact absurd hI h1
      · exact h1
      · exact absurd e' (strictPrefix_ne hsp k')
    have hv0 : v.toNat ≠ 0 := by
      intro h0
      rw [h0, h.head] at hv
      simp at hv
      exact hp hv
    have hil := (List.getElem?_eq_some_iff.mp hv).1
    have hlen := h.lengthI
    obtain ⟨w, hw, hsw⟩ := h.slots _ p d hv (hd d (List.mem_cons_self ..))
    have e1 := srcBlock_ok (0 : UInt16) t.indices v hv0 (by omega) (by rw [h.lenI]; omega)
    have hmem : w ∈ (t.indices.take (64 * v.toNat + 64)).drop (64 * v.toNat) := by
      apply List.mem_of_getElem? (i := d)
      have := hd d (List.mem_cons_self ..)
      rw [List.getElem?_drop, List.getElem?_take, if_pos (by omega)]
      exact hw
    rw [List.length_cons] at hb
    rw [build] at hb
    simp only [e1, bind, Except.bind] at hb
    cases hf : fillBlock (build t s.length iw pw) st ((t.indices.take (64 * v.toNat + 64)).drop (64 * v.toNat)) with
    | error e => rw [hf] at hb; exact absurd hb (by simp)
    | ok r1 =>
      obtain ⟨st', r', hb'⟩ := fillBlock_all _ hf w hmem
      exact ih (p ++ [d]) w iw pw st' r' (by simp) (by rw [e]; simp) (fun x hx => hd x (List.mem_cons_of_mem _ hx)) hsw hb'

theorem rootLoop_all {t : Tree} (src : List UInt16) : ∀ (i : Nat) (st : CState) (r), i + src.length ≤ 64 →
    rootLoop t i src st = .ok r → ∀ j v, src[j]? = some v → ∃ st' r', build t (lev (i + j)) .indexMap .propMap st' v = .ok r' := by
  induction src with
  | nil => intro i st r _ _ j v hj; simp at hj
  | cons b bs ih =>
    intro i st r hlen hr j v hj
    rw [List.length_cons] at hlen
    have hl : rootLevels i = .ok (lev i) := by
      unfold rootLevels lev
      have e := Nat.shiftRight_eq_div_pow i 4
      by_cases h1 : i < 32
      · rw [if_pos (by omega), if_pos h1]
      · rw [if_neg (by omega), if_neg h1]
        by_cases h2 : i < 48
        · rw [if_pos (by omega), if_pos h2]
        · rw [if_neg (by omega), if_pos (by omega), if_neg h2]
    unfold rootLoop at hr
    simp only [hl, bind, Except.bind] at hr
    cases hb : build t (lev i) .indexMap .propMap st b with
    | error e => rw [hb] at hr; exact absurd hr (by simp)
    | ok r1 =>
      obtain ⟨st1, v1⟩ := r1
      rw [hb] at hr
      simp only at hr
      cases j with
      | zero =>
        simp at hj
        subst hj
        exact ⟨st, _, hb⟩
      | succ j =>
        cases hs : st1.setRoot i v1 with
        | error e => rw [hs] at hr; exact absurd hr (by simp)
        | ok st2 =>
          rw [hs] at hr
          obtain ⟨st', r', h'⟩ := ih (i + 1) st2 r (by omega) hr j v (by simpa using hj)
          exact ⟨st', r', by rw [show i + (j + 1) = i + 1 + j by omega]; exact h'⟩

/-- Compaction fails if there are 1024 property blocks. -/
theorem Compact_fails {t IB PB F} (h : Inv t IB PB F) (hP : 1024 ≤ PB.length) : ∃ e, t.Compact = .error e := by
  cases hc : t.Compact with
  | error e => exact ⟨e, rfl⟩
  | ok r =>
    exfalso
    have hk : PB[1023]? = some PB[1023] := List.getElem?_eq_getElem (by omega)
    generalize PB[1023] = k at hk
    have hk2 : 2 ≤ k := (h.two_le hk).mp (by omega)
    have hkm := List.mem_of_getElem? hk
    have hklt := h.rangeP k hkm
    obtain ⟨d, s, e, hd, hs, hls⟩ : ∃ d s, pathOf k = [d] ++ s ∧ d < 64 ∧ (∀ x ∈ s, x < 64) ∧ s.length = lev d := by
      rcases pathOf_cases k with ⟨_, e⟩ | ⟨_, _, e⟩ | ⟨_, e⟩
      · exact ⟨k, [], by rw [e]; rfl, by omega, by simp, by unfold lev; rw [if_pos (by omega)]; rfl⟩
      · refine ⟨32 + k / 64, [k % 64], by rw [e]; rfl, by omega, ?_, ?_⟩
        · intro x hx; simp at hx; omega
        · unfold lev; rw [if_neg (by omega), if_pos (by omega)]; rfl
      · refine ⟨48 + k / 4096, [k / 64 % 64, k % 64], by rw [e]; rfl, by omega, ?_, ?_⟩
        · intro x hx; simp at hx; omega
        · unfold lev; rw [if_neg (by omega), if_neg (by omega)]; rfl
    have hlenI := h.lenI
    have hi1 := (List.getElem?_eq_some_iff.mp h.head).1
    obtain ⟨w, hw, hsw⟩ := h.slots 0 [] d h.head hd
    unfold Tree.Compact at hc
    have g3 : goSliceTo t.indices 64 = .ok (t.indices.take 64) := by
      unfold goSliceTo
      rw [if_pos (by omega)]
    have hlen : (t.indices.take 64).length = 64 := by rw [List.length_take]; omega
    simp only [g3, bind, Except.bind] at hc
    repeat' (split at hc; · exact absurd hc (by simp))
    rename_i hr _
    obtain ⟨st', r', hb⟩ := rootLoop_all _ 0 _ _ (by omega) hr d w (by
      rw [List.getElem?_take, if_pos hd]
      rw [Nat.mul_zero, Nat.zero_add] at hw
      exact hw)
    rw [Nat.zero_add, ← hls] at hb
    exact walk_fails h hk s [d] w _ _ st' r' (by simp) e hs hsw hb

end Textseg.Gen
