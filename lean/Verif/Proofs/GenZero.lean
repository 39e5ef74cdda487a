import Verif.Proofs.GenResult
/-!
# When the consistency check at the end of the compaction fails
-/

namespace Textseg.Gen
open Textseg Spec

/-- The only block number 0 in the maps is that of the first half of ASCII, in the map that is seeded with it. -/
def NZ (F : Nat → UInt8) (st : CState) : Prop :=
  128 ≤ st.props.length ∧
  ∀ w key v, (st.getMap w).get key = some v → v = 0 → w = .propMap ∧ key = blockF F 0 ∧ blockF F 0 ≠ blockF F 1

/-- The leaves below the path do not use block 0. -/
def Avoids (F : Nat → UInt8) : Nat → Which → Which → List Nat → Prop
  | 0, pw, _, p => pw = .propMap → leafF F p = blockF F 0 → blockF F 0 = blockF F 1
  | n + 1, pw, iw, p => ∀ d, d < 64 → Avoids F n iw pw (p ++ [d])

theorem u16_ofNat_ne {n : Nat} (h : n ≤ 3000000) (h' : 64 ≤ n) : UInt16.ofNat (n >>> 6) ≠ 0 := by
  intro e
  have := u16_toNat_zero.mp e
  rw [u16_ofNat h] at this
  omega

theorem find_nz {F st} (hs : Sound st) (hz : NZ F st) : ∀ {n pw iw p v}, Avoids F n pw iw p →
    cfind (leafF F) n pw iw st p = some v → v ≠ 0 := by
  intro n
  cases n with
  | zero =>
    intro pw iw p v ha hf h0
    obtain ⟨h1, h2, h3⟩ := hz.2 _ _ _ hf h0
    exact h3 (ha h1 h2)
  | succ n =>
    intro pw iw p v ha hf h0
    obtain ⟨vs, h1, h2⟩ := cfind_succ.mp hf
    rcases hs.maps _ _ _ h2 with ⟨h3, _⟩ | ⟨vs', _, _, h4, _⟩
    · have hlen : vs.length = 64 := by
        have := congrArg List.length h1
        simpa using this.symm
      rw [ikey_length] at h3; omega
    · rw [h0] at h4
      exact absurd h4 (by decide)

/-- Everything but the root block. -/
def NoZero (st : CState) : Prop := ∀ x ∈ st.indices.drop 64, x ≠ (0 : UInt16)

def ZInv (F : Nat → UInt8) (st : CState) : Prop := Small st → Sound st ∧ NZ F st ∧ NoZero st

theorem addLeaf_z {F w st p} (h : ZInv F st) : ZInv F (addLeaf w st (leafF F p)).1 := by
  intro hsm
  have hs := addLeaf_sound (leafF_length F) w st p (fun h' => (h h').1) hsm
  rcases addLeaf_found (w := w) (st := st) (block := leafF F p) with ⟨v, _, hv⟩ | ⟨hn, g1, g2⟩
  · rw [hv] at hsm ⊢; exact h hsm
  · have hsm' : Small st := by
      unfold Small at hsm ⊢
      rw [g1, g2, List.length_append] at hsm
      omega
    obtain ⟨_, hz, hnz⟩ := h hsm'
    refine ⟨hs, ⟨?_, ?_⟩, ?_⟩
    · rw [g2, List.length_append]; have := hz.1; omega
    · intro w' key v hg h0
      have e : addLeaf w st (leafF F p) = (({ st with props := st.props ++ leafF F p }).putMap w (leafF F p)
          (UInt16.ofNat (st.props.length >>> 6)), UInt16.ofNat (st.props.length >>> 6)) := by
        unfold addLeaf; rw [hn]
      rw [e, getMap_putMap] at hg
      split at hg
      · simp only [Option.some.injEq] at hg
        rw [h0] at hg
        exact absurd hg (u16_ofNat_ne hsm'.1 (by have := hz.1; omega))
      · exact hz.2 w' key v (by cases w' <;> exact hg) h0
    · unfold NoZero; rw [g1]; exact hnz

theorem addIndex_z {F w st block} (hb : block.length = 64) (hblock : Small st → ∀ x ∈ block, x ≠ (0 : UInt16)) (h : ZInv F st) :
    ZInv F (addIndex w st block).1 := by
  intro hsm
  have hs := addIndex_sound w st block hb (fun h' => (h h').1) hsm
  rcases addIndex_found (w := w) (st := st) (block := block) with ⟨v, _, hv⟩ | ⟨hn, g1, g2⟩
  · rw [hv] at hsm ⊢; exact h hsm
  · have hsm' : Small st := by
      unfold Small at hsm ⊢
      rw [g1, g2, List.length_append] at hsm
      omega
    obtain ⟨hs', hz, hnz⟩ := h hsm'
    refine ⟨hs, ⟨?_, ?_⟩, ?_⟩
    · rw [g1]; exact hz.1
    · intro w' key v hg h0
      have e : addIndex w st block = ((st.appendIndices block).putMap w (ikey block)
          (UInt16.ofNat (st.indices.length >>> 6)), UInt16.ofNat (st.indices.length >>> 6)) := by
        unfold addIndex; rw [hn]
      rw [e, getMap_putMap] at hg
      split at hg
      · simp only [Option.some.injEq] at hg
        rw [h0] at hg
        exact absurd hg (u16_ofNat_ne hsm'.2 hs'.i1)
      · exact hz.2 w' key v (by cases w' <;> exact hg) h0
    · unfold NoZero
      rw [g2, List.drop_append_of_le_length hs'.i1]
      intro x hx
      rcases List.mem_append.mp hx with hx | hx
      · exact hnz x hx
      · exact hblock hsm' x hx

theorem cbuild_z {F} : ∀ (n : Nat) (pw iw : Which) (st : CState) (p : List Nat), Avoids F n pw iw p → ZInv F st →
    ZInv F (cbuild (leafF F) n pw iw st p).1 := by
  intro n
  induction n with
  | zero => intro pw iw st p _ h; exact addLeaf_z h
  | succ n ih =>
    intro pw iw st p ha h
    have key : ∀ ds st, (∀ d ∈ ds, d < 64) → ZInv F st →
        ZInv F (cfill (fun st d => cbuild (leafF F) n iw pw st (p ++ [d])) st ds).1 := by
      intro ds
      induction ds with
      | nil => intro st _ h; exact h
      | cons d ds ihd =>
        intro st hd h
        exact ihd _ (fun x hx => hd x (List.mem_cons_of_mem _ hx))
          (ih iw pw st (p ++ [d]) (ha d (hd d (List.mem_cons_self ..))) h)
    have h1 := key (List.range 64) st (fun d hd => List.mem_range.mp hd) h
    obtain ⟨_, hfound⟩ := cfill_spec (f := fun st d => cbuild (leafF F) n iw pw st (p ++ [d]))
      (find := fun st d => cfind (leafF F) n iw pw st (p ++ [d])) (fun st st' d v h => cfind_mono h)
      (fun st d => cbuild_spec n iw pw st (p ++ [d])) (List.range 64) st
    have hlen := cfill_length (fun st d => cbuild (leafF F) n iw pw st (p ++ [d])) st (List.range 64)
    unfold cbuild
    refine addIndex_z (by rw [hlen]; simp) ?_ h1
    intro hsm x hx
    obtain ⟨hs, hz, _⟩ := h1 hsm
    obtain ⟨d, hd⟩ := List.getElem?_of_mem hx
    have hd64 : d < 64 := by
      have := (List.getElem?_eq_some_iff.mp hd).1
      rw [hlen] at this; simpa using this
    have e := congrArg (·[d]?) hfound
    simp only [List.getElem?_map, List.getElem?_range hd64, Option.map_some, hd, Option.some.injEq] at e
    exact find_nz hs hz (ha d hd64) e

theorem setRootP_z {F st} (h : ZInv F st) {i : Nat} (hi : i < 64) (v : UInt16) : ZInv F (setRootP st i v) := by
  intro hsm
  have hs := setRootP_sound (fun h' => (h h').1) hi v hsm
  have hsm' : Small st := by
    unfold Small at hsm ⊢
    rw [setRootP_ilen] at hsm
    exact hsm
  obtain ⟨_, hz, hnz⟩ := h hsm'
  refine ⟨hs, ⟨hz.1, fun w key v' hg => ?_⟩, ?_⟩
  · rw [getMap_setRootP] at hg; exact hz.2 w key v' hg
  · unfold NoZero setRootP
    simp only
    split
    · rw [List.drop_set_of_lt hi]; exact hnz
    · exact hnz

theorem croot_z {F} (hav : ∀ i, i < 64 → Avoids F (lev i) .indexMap .propMap [i]) (is : List Nat) (his : ∀ i ∈ is, i < 64) :
    ∀ st, ZInv F st → ZInv F (croot (leafF F) is st) := by
  induction is with
  | nil => intro st h; exact h
  | cons i is ih =>
    intro st h
    have hi := his i (List.mem_cons_self ..)
    exact ih (fun j hj => his j (List.mem_cons_of_mem _ hj)) _ (setRootP_z (cbuild_z _ _ _ _ _ (hav i hi) h) hi _)

theorem cinit_z (F cap) : ZInv F (cinit F cap) := by
  intro _
  refine ⟨cinit_sound F cap, ⟨by simp [cinit, blockF_length], ?_⟩, ?_⟩
  · intro w key v hg h0
    obtain ⟨h1, h2⟩ := cinit_get F cap w key v hg
    rcases h2 with ⟨_, h3⟩ | ⟨h2, _, h3⟩
    · rw [h0] at h3; exact absurd h3 (by decide)
    · exact ⟨h1, h2, h3⟩
  · unfold NoZero
    simp [cinit]

theorem avoids_root {F} (h : blockF F 0 ≠ blockF F 1 → ∀ a d, a < 16 → d < 64 → leafF F [32 + a, d] ≠ blockF F 0) (i : Nat) :
    Avoids F (lev i) .indexMap .propMap [i] := by
  unfold lev
  split
  · intro hw; exact absurd hw (by decide)
  · split
    · intro d hd
      intro _ e
      apply Classical.byContradiction
      intro hne
      refine h hne (i - 32) d (by omega) hd ?_
      rw [show 32 + (i - 32) = i by omega]
      exact e
    · intro d hd d' hd' hw
      exact absurd hw (by decide)

/-- The check fails exactly if a block of three-byte characters equals the first half of ASCII, and the halves of ASCII
differ. -/
theorem zero_iff {t IB PB F} (h : Inv t IB PB F) :
    (0 : UInt16) ∈ (cfinal F (t.indices.length * 4)).indices ↔
      blockF F 0 ≠ blockF F 1 ∧ ∃ a d, a < 16 ∧ d < 64 ∧ leafF F [32 + a, d] = blockF F 0 := by
  have hf := final_of_inv h
  obtain ⟨s1, s2⟩ := cfinal_size h (t.indices.length * 4)
  have hI := h.lengthI
  have hP := h.lengthP
  have hsm : Small (cfinal F (t.indices.length * 4)) := ⟨by omega, by omega⟩
  constructor
  · intro hm
    apply Classical.byContradiction
    intro hn
    have hav := avoids_root (F := F) (fun hne a d ha hd e => hn ⟨hne, a, d, ha, hd, e⟩)
    obtain ⟨hs, hz, hnz⟩ := croot_z (fun i _ => hav i) (List.range 64) (fun i hi => List.mem_range.mp hi) _
      (cinit_z F (t.indices.length * 4)) hsm
    obtain ⟨j, hj⟩ := List.getElem?_of_mem hm
    by_cases hj64 : j < 64
    · obtain ⟨v, e1, e2⟩ := hf.found j hj64
      rw [hj] at e1
      simp only [Option.some.injEq] at e1
      exact find_nz hs hz (hav j) e2 e1.symm
    · refine hnz 0 (List.mem_of_getElem? (i := j - 64) ?_) rfl
      rw [List.getElem?_drop, show 64 + (j - 64) = j by omega]
      exact hj
  · rintro ⟨hne, a, d, ha, hd, e⟩
    obtain ⟨v, e1, e2⟩ := hf.found (32 + a) (by omega)
    rw [show lev (32 + a) = 1 by unfold lev; rw [if_neg (by omega), if_pos (by omega)]] at e2
    obtain ⟨w, hw, _⟩ := reads_of_find (leafF_length F) hf.sound e2 d hd
    obtain ⟨vs, h1, h2⟩ := cfind_succ.mp e2
    have h0 : ((cinit F (t.indices.length * 4)).getMap .propMap).get (blockF F 0) = some 0 := by
      simp only [cinit, CState.getMap, get_put]
      rw [if_neg hne, if_pos trivial]
    have h3 := (croot_ext (L := leafF F) (List.range 64) _) _ _ _ h0
    have h4 := congrArg (·[d]?) h1
    simp only [List.getElem?_map, List.getElem?_range hd, Option.map_some] at h4
    have h5 : cfind (leafF F) 0 .propMap .indexMap (cfinal F (t.indices.length * 4)) ([32 + a] ++ [d]) = some 0 := by
      show ((cfinal F (t.indices.length * 4)).getMap .propMap).get (leafF F [32 + a, d]) = some 0
      rw [e]; exact h3
    rw [h5] at h4
    have hlen : vs.length = 64 := by
      have := congrArg List.length h1
      simpa using this.symm
    have hv0 : vs[d]? = some 0 := by
      cases hv : vs[d]? with
      | none => rw [hv] at h4; simp at h4
      | some x => rw [hv] at h4; simp at h4; rw [h4]
    rcases hf.sound.maps _ _ _ h2 with ⟨h6, _⟩ | ⟨vs', _, h6, _, h7⟩
    · rw [ikey_length] at h6; omega
    · rw [← ikey_inj h6] at h7
      rw [← h7, slice_get hd] at hv0
      exact List.mem_of_getElem? hv0

end Textseg.Gen
