import Verif.Model.GenTable
/-!
# The size of the table: the lengths of the slices that `Compact` returns fit into an `int`, whatever is in the tree
-/

namespace Textseg.Gen
open Textseg

/-- `st'` has at most `n` elements more than `st`. -/
def SizeGrows (n : Nat) (st st' : CState) : Prop :=
  st'.indices.length ≤ st.indices.length + n ∧ st'.props.length ≤ st.props.length + n

theorem SizeGrows.refl (n : Nat) (st : CState) : SizeGrows n st st := ⟨by omega, by omega⟩
theorem SizeGrows.trans {n k st st' st''} (h : SizeGrows n st st') (h' : SizeGrows k st' st'') : SizeGrows (n + k) st st'' :=
  ⟨by have := h.1; have := h'.1; omega, by have := h.2; have := h'.2; omega⟩

theorem putMap_lens (st : CState) (w : Which) (k : List UInt8) (v : UInt16) :
    (st.putMap w k v).indices = st.indices ∧ (st.putMap w k v).props = st.props := by
  cases w <;> exact ⟨rfl, rfl⟩

theorem fillBlock_grows {f : CState → UInt16 → Go (CState × UInt16)} {n : Nat} (hf : ∀ st i st' v, f st i = .ok (st', v) → SizeGrows n st st') :
    ∀ l st st' vs, fillBlock f st l = .ok (st', vs) → SizeGrows (l.length * n) st st' ∧ vs.length = l.length := by
  intro l
  induction l with
  | nil => intro st st' vs h; cases h; exact ⟨SizeGrows.refl _ _, rfl⟩
  | cons a l ih =>
    intro st st' vs h
    simp only [fillBlock, bind, Except.bind] at h
    rcases h1 : f st a with e | ⟨s1, v⟩
    · rw [h1] at h; cases h
    · rw [h1] at h
      rcases h2 : fillBlock f s1 l with e | ⟨s2, ws⟩
      · simp only [h2] at h; cases h
      · simp only [h2] at h
        cases h
        obtain ⟨i1, i2⟩ := ih _ _ _ h2
        refine ⟨?_, by rw [List.length_cons, List.length_cons, i2]⟩
        rw [List.length_cons, show (l.length + 1) * n = n + l.length * n by rw [Nat.add_mul]; omega]
        exact (hf _ _ _ _ h1).trans i1

/-- The largest number of elements that `buildCompactedBlocks` adds. -/
def growBound : Nat → Nat
  | 0 => 64
  | n + 1 => 64 * growBound n + 64

theorem keyLen {b : List UInt8} {k : List UInt8} (h : propertyBlockKey b = .ok k) : b.length = 64 := by
  unfold propertyBlockKey at h
  split at h
  · cases h
  · next hb => omega

theorem ikeyLen {b : List UInt16} {k : List UInt8} (h : indexBlockKey b = .ok k) : b.length = 64 := by
  unfold indexBlockKey at h
  split at h
  · cases h
  · next hb => omega

theorem build_grows (t : Tree) : ∀ n pw iw st i st' v, build t n pw iw st i = .ok (st', v) → SizeGrows (growBound n) st st' := by
  intro n
  induction n with
  | zero =>
    intro pw iw st i st' v h
    simp only [build, buildLeaf, bind, Except.bind] at h
    rcases h1 : srcBlock 0 t.rawProps i with e | b
    · rw [h1] at h; cases h
    · simp only [h1] at h
      rcases h2 : propertyBlockKey b with e | k
      · simp only [h2] at h; cases h
      · simp only [h2] at h
        have := keyLen h2
        split at h
        · cases h; exact SizeGrows.refl _ _
        · cases h
          refine ⟨?_, ?_⟩
          · rw [(putMap_lens _ _ _ _).1]; simp only; omega
          · rw [(putMap_lens _ _ _ _).2, List.length_append, growBound]; omega
  | succ n ih =>
    intro pw iw st i st' v h
    simp only [build, bind, Except.bind] at h
    rcases h1 : srcBlock 0 t.indices i with e | b
    · rw [h1] at h; cases h
    · simp only [h1] at h
      rcases h2 : fillBlock (build t n iw pw) st b with e | ⟨s2, nb⟩
      · simp only [h2] at h; cases h
      · simp only [h2] at h
        obtain ⟨g1, g2⟩ := fillBlock_grows (fun st i st' v h => ih iw pw st i st' v h) _ _ _ _ h2
        rcases h3 : indexBlockKey nb with e | k
        · simp only [h3] at h; cases h
        · simp only [h3] at h
          have l1 := ikeyLen h3
          rw [← g2, l1] at g1
          have g11 := g1.1
          have g12 := g1.2
          split at h
          · cases h
            exact ⟨by rw [growBound]; omega, by rw [growBound]; omega⟩
          · cases h
            refine ⟨?_, ?_⟩
            · rw [(putMap_lens _ _ _ _).1, CState.appendIndices, List.length_append, growBound]; omega
            · rw [(putMap_lens _ _ _ _).2, CState.appendIndices, growBound]; simp only; omega

theorem rootLoop_grows (t : Tree) : ∀ src i st st', rootLoop t i src st = .ok st' → SizeGrows (src.length * growBound 2) st st' := by
  intro src
  induction src with
  | nil => intro i st st' h; cases h; exact SizeGrows.refl _ _
  | cons a l ih =>
    intro i st st' h
    simp only [rootLoop, bind, Except.bind] at h
    rcases h1 : rootLevels i with e | n
    · rw [h1] at h; cases h
    · simp only [h1] at h
      have hn : n ≤ 2 := by
        unfold rootLevels at h1
        repeat' split at h1
        all_goals cases h1 <;> omega
      have hg : growBound n ≤ growBound 2 := by
        rcases n with _ | _ | _ | n
        · decide
        · decide
        · decide
        · omega
      rcases h2 : build t n .indexMap .propMap st a with e | ⟨s2, v⟩
      · simp only [h2] at h; cases h
      · simp only [h2] at h
        have g := build_grows t n _ _ _ _ _ _ h2
        rcases h3 : s2.setRoot i v with e | s3
        · simp only [h3] at h; cases h
        · simp only [h3] at h
          have l3 : s3.indices.length = s2.indices.length ∧ s3.props.length = s2.props.length := by
            simp only [CState.setRoot, bind, Except.bind] at h3
            split at h3
            · cases h3
            · cases h3
              refine ⟨?_, rfl⟩
              simp only
              split <;> simp
          have g' := ih _ _ _ h
          rw [List.length_cons, show (l.length + 1) * growBound 2 = growBound 2 + l.length * growBound 2 by rw [Nat.add_mul]; omega]
          refine SizeGrows.trans ⟨?_, ?_⟩ g'
          · have := g.1; omega
          · have := g.2; omega

theorem compact_size {t : Tree} {raw : RawPropertyTree} (h : t.Compact = .ok raw) :
    raw.Indices.length < 20000000 ∧ raw.Properties.length < 20000000 := by
  simp only [Tree.Compact, bind, Except.bind] at h
  rcases h1 : goSliceTo t.rawProps 64 with e | b0
  · rw [h1] at h; cases h
  simp only [h1] at h
  rcases h2 : propertyBlockKey b0 with e | k0
  · simp only [h2] at h; cases h
  simp only [h2] at h
  rcases h3 : goSlice t.rawProps 64 128 with e | b1
  · simp only [h3] at h; cases h
  simp only [h3] at h
  rcases h4 : propertyBlockKey b1 with e | k1
  · simp only [h4] at h; cases h
  simp only [h4] at h
  rcases h5 : goSliceTo t.rawProps 128 with e | ascii
  · simp only [h5] at h; cases h
  simp only [h5] at h
  rcases h6 : goSliceTo t.indices 64 with e | src
  · simp only [h6] at h; cases h
  simp only [h6] at h
  have la : ascii.length ≤ 128 := by
    unfold goSliceTo at h5
    split at h5
    · cases h5; rw [List.length_take]; omega
    · cases h5
  have ls : src.length ≤ 64 := by
    unfold goSliceTo at h6
    split at h6
    · cases h6; rw [List.length_take]; omega
    · cases h6
  split at h
  · cases h
  · next st hst =>
    have g := rootLoop_grows t _ _ _ _ hst
    have g1 := g.1
    have g2 := g.2
    simp only [List.length_replicate] at g1 g2
    have hb : src.length * growBound 2 ≤ 64 * growBound 2 := Nat.mul_le_mul_right _ ls
    have hv : growBound 2 = 266304 := by decide
    rw [hv] at g1 g2 hb
    split at h
    · cases h
    · cases h
      simp only
      omega

theorem build_size {σ : Type} {read : Reader σ} {fuel : Nat} {rd1 rd2 rd3 : σ} {raw : RawPropertyTree}
    (h : BuildRawPropertyTree read fuel rd1 rd2 rd3 = .ok (.ok raw)) : raw.Indices.length < 20000000 ∧ raw.Properties.length < 20000000 := by
  unfold BuildRawPropertyTree at h
  simp only [bind, Except.bind] at h
  repeat' split at h
  all_goals first | (cases h; done) | skip
  all_goals
    cases h
    rename_i hc
    exact compact_size hc

end Textseg.Gen
