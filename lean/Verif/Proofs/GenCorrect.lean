import Verif.Proofs.GenFind
/-!
# Correctness of the compaction
-/

namespace Textseg.Gen
open Textseg Spec

/-- Block `v` of an array. -/
def slice {α : Type} (l : List α) (v : Nat) : List α := (l.drop (64 * v)).take 64

theorem slice_append {α : Type} {l : List α} {v : Nat} (h : (slice l v).length = 64) (l' : List α) :
    slice (l ++ l') v = slice l v := by
  unfold slice at *
  have hl : 64 * v + 64 ≤ l.length := by
    rw [List.length_take, List.length_drop] at h; omega
  rw [List.drop_append_of_le_length (by omega), List.take_append_of_le_length (by rw [List.length_drop]; omega)]

theorem slice_new {α : Type} {l : List α} {v : Nat} (h : l.length = 64 * v) {block : List α} (hb : block.length = 64) :
    slice (l ++ block) v = block := by
  unfold slice
  rw [← h, List.drop_left, ← hb, List.take_length]

theorem slice_set {α : Type} {l : List α} {v i : Nat} (hv : 1 ≤ v) (hi : i < 64) (x : α) : slice (l.set i x) v = slice l v := by
  unfold slice
  rw [List.drop_set_of_lt (by omega)]

theorem slice_get {α : Type} {l : List α} {v d : Nat} (hd : d < 64) : (slice l v)[d]? = l[64 * v + d]? := by
  unfold slice
  rw [List.getElem?_take, if_pos hd, List.getElem?_drop]

theorem ikey_length (vs : List UInt16) : (ikey vs).length = 2 * vs.length := by
  induction vs with
  | nil => rfl
  | cons v vs ih => unfold ikey at *; simp [ih]; omega

theorem ikey_inj {a b : List UInt16} (h : ikey a = ikey b) : a = b := by
  induction a generalizing b with
  | nil =>
    cases b with
    | nil => rfl
    | cons y b => simp [ikey] at h
  | cons x a ih =>
    cases b with
    | nil => simp [ikey] at h
    | cons y b =>
      unfold ikey at *
      simp only [List.flatMap_cons, List.cons_append, List.nil_append, List.cons.injEq] at h
      obtain ⟨h1, h2, h3⟩ := h
      rw [ih h3]
      congr 1
      apply UInt16.toNat_inj.mp
      have e1 := congrArg UInt8.toNat h1
      have e2 := congrArg UInt8.toNat h2
      rw [UInt16.toNat_toUInt8, UInt16.toNat_toUInt8] at e1 e2
      rw [UInt16.toNat_shiftRight, UInt16.toNat_shiftRight] at e2
      have l1 := x.toNat_lt
      have l2 := y.toNat_lt
      have s8 : ∀ n : Nat, n >>> ((8 : UInt16).toNat % 16) = n / 256 := fun n => Nat.shiftRight_eq_div_pow n 8
      rw [s8, s8] at e2
      omega

/-- What a map says about a block. -/
def MapOK (st : CState) (key : List UInt8) (v : Nat) : Prop :=
  (key.length = 64 ∧ slice st.props v = key) ∨
    ∃ vs : List UInt16, vs.length = 64 ∧ key = ikey vs ∧ 1 ≤ v ∧ slice st.indices v = vs

structure Sound (st : CState) : Prop where
  p64 : st.props.length % 64 = 0
  i64 : st.indices.length % 64 = 0
  i1 : 64 ≤ st.indices.length
  root : st.root.length = 64
  maps : ∀ w key v, (st.getMap w).get key = some v → MapOK st key v.toNat
  share : st.shared = true → st.indices.take 64 = st.root
  capped : st.shared = true ∨ st.cap < st.indices.length

def Small (st : CState) : Prop := st.props.length ≤ 3000000 ∧ st.indices.length ≤ 3000000

theorem u16_ofNat {n : Nat} (h : n ≤ 3000000) : (UInt16.ofNat (n >>> 6)).toNat = n / 64 := by
  rw [UInt16.toNat_ofNat', Nat.shiftRight_eq_div_pow]
  omega

theorem addLeaf_sound {L : List Nat → List UInt8} (hL : ∀ p, (L p).length = 64) (w st p) (h : Small st → Sound st) :
    Small (addLeaf w st (L p)).1 → Sound (addLeaf w st (L p)).1 := by
  intro hs
  have hb := hL p
  generalize L p = block at *
  unfold addLeaf at hs ⊢
  split
  · next i hi => rw [hi] at hs; exact h hs
  · next hi =>
    rw [hi] at hs
    have e1 : ∀ k v, (({ st with props := st.props ++ block }).putMap w k v).props = st.props ++ block := by
      intro k v; cases w <;> rfl
    have e2 : ∀ k v, (({ st with props := st.props ++ block }).putMap w k v).indices = st.indices := by
      intro k v; cases w <;> rfl
    have e3 : ∀ k v, (({ st with props := st.props ++ block }).putMap w k v).root = st.root := by
      intro k v; cases w <;> rfl
    have e4 : ∀ k v, (({ st with props := st.props ++ block }).putMap w k v).shared = st.shared := by
      intro k v; cases w <;> rfl
    have e5 : ∀ k v, (({ st with props := st.props ++ block }).putMap w k v).cap = st.cap := by
      intro k v; cases w <;> rfl
    have hs' : Small st := by
      unfold Small at hs ⊢
      simp only [e1, e2] at hs
      rw [List.length_append] at hs
      omega
    have h' := h hs'
    simp only
    refine ⟨?_, ?_, ?_, ?_, ?_, ?_, ?_⟩
    · rw [e1, List.length_append, hb]; have := h'.p64; omega
    · rw [e2]; exact h'.i64
    · rw [e2]; exact h'.i1
    · rw [e3]; exact h'.root
    · intro w' key v hg
      unfold MapOK
      rw [e1, e2]
      rw [getMap_putMap] at hg
      split at hg
      · next hc =>
        simp only [Option.some.injEq] at hg
        subst hg
        left
        refine ⟨by rw [hc.2, hb], ?_⟩
        rw [hc.2, u16_ofNat hs'.1]
        exact slice_new (by have := h'.p64; omega) hb
      · have : (st.getMap w').get key = some v := by cases w' <;> exact hg
        rcases h'.maps _ _ _ this with ⟨k1, k2⟩ | k
        · left
          refine ⟨k1, ?_⟩
          rw [slice_append (by rw [k2, k1]), k2]
        · exact .inr k
    · rw [e2, e3, e4]; exact h'.share
    · rw [e2, e4, e5]; exact h'.capped

theorem addIndex_sound (w st block) (hb : block.length = 64) (h : Small st → Sound st) :
    Small (addIndex w st block).1 → Sound (addIndex w st block).1 := by
  intro hs
  unfold addIndex at hs ⊢
  split
  · next i hi => rw [hi] at hs; exact h hs
  · next hi =>
    rw [hi] at hs
    have e1 : ∀ k v, ((st.appendIndices block).putMap w k v).props = st.props := by
      intro k v; cases w <;> rfl
    have e2 : ∀ k v, ((st.appendIndices block).putMap w k v).indices = st.indices ++ block := by
      intro k v; cases w <;> rfl
    have e3 : ∀ k v, ((st.appendIndices block).putMap w k v).root = st.root := by
      intro k v; cases w <;> rfl
    have e4 : ∀ k v, ((st.appendIndices block).putMap w k v).shared =
        (st.shared && decide (st.indices.length + block.length ≤ st.cap)) := by
      intro k v; cases w <;> rfl
    have e5 : ∀ k v, ((st.appendIndices block).putMap w k v).cap = st.cap := by
      intro k v; cases w <;> rfl
    have hs' : Small st := by
      unfold Small at hs ⊢
      simp only [e1, e2] at hs
      rw [List.length_append] at hs
      omega
    have h' := h hs'
    have hi1 := h'.i1
    simp only
    refine ⟨?_, ?_, ?_, ?_, ?_, ?_, ?_⟩
    · rw [e1]; exact h'.p64
    · rw [e2, List.length_append, hb]; have := h'.i64; omega
    · rw [e2, List.length_append]; omega
    · rw [e3]; exact h'.root
    · intro w' key v hg
      unfold MapOK
      rw [e1, e2]
      rw [getMap_putMap] at hg
      split at hg
      · next hc =>
        simp only [Option.some.injEq] at hg
        subst hg
        right
        refine ⟨block, hb, hc.2, ?_, ?_⟩
        · rw [u16_ofNat hs'.2]; omega
        · rw [u16_ofNat hs'.2]
          exact slice_new (by have := h'.i64; omega) hb
      · have : (st.getMap w').get key = some v := by cases w' <;> exact hg
        rcases h'.maps _ _ _ this with k | ⟨vs, k1, k2, k3, k4⟩
        · exact .inl k
        · right
          refine ⟨vs, k1, k2, k3, ?_⟩
          rw [slice_append (by rw [k4, k1]), k4]
    · rw [e2, e3, e4]
      intro hsh
      simp only [Bool.and_eq_true] at hsh
      rw [List.take_append_of_le_length (by omega)]
      exact h'.share hsh.1
    · rw [e2, e4, e5, List.length_append]
      rcases h'.capped with h1 | h1
      · rw [h1]
        by_cases hc : st.indices.length + block.length ≤ st.cap
        · left; simp [hc]
        · right; omega
      · right; omega

theorem cbuild_sound {L : List Nat → List UInt8} (hL : ∀ p, (L p).length = 64) (n pw iw st p) (h : Small st → Sound st) :
    Small (cbuild L n pw iw st p).1 → Sound (cbuild L n pw iw st p).1 :=
  cbuild_pres (P := fun st => Small st → Sound st) (fun w st p => addLeaf_sound hL w st p)
    (fun w st block hb => addIndex_sound w st block hb) n pw iw st p h

/-- The block with number `v` holds the subtree at the path. -/
def Reads (L : List Nat → List UInt8) (props : List UInt8) (indices : List UInt16) : Nat → Nat → List Nat → Prop
  | 0, v, p => slice props v = L p
  | n + 1, v, p => ∀ d, d < 64 → ∃ w : UInt16, indices[64 * v + d]? = some w ∧ Reads L props indices n w.toNat (p ++ [d])

theorem reads_of_find {L : List Nat → List UInt8} (hL : ∀ p, (L p).length = 64) {st : CState} (h : Sound st) :
    ∀ {n pw iw p v}, cfind L n pw iw st p = some v → Reads L st.props st.indices n v.toNat p := by
  intro n
  induction n with
  | zero =>
    intro pw iw p v hf
    rcases h.maps _ _ _ hf with ⟨_, h2⟩ | ⟨vs, h1, h2, _⟩
    · exact h2
    · have := congrArg List.length h2
      rw [hL, ikey_length, h1] at this
      omega
  | succ n ih =>
    intro pw iw p v hf d hd
    obtain ⟨vs, h1, h2⟩ := cfind_succ.mp hf
    have hlen : vs.length = 64 := by
      have := congrArg List.length h1
      simpa using this.symm
    rcases h.maps _ _ _ h2 with ⟨h3, _⟩ | ⟨vs', _, h3, _, h4⟩
    · rw [ikey_length] at h3; omega
    · rw [← ikey_inj h3] at h4
      obtain ⟨w, hw⟩ : ∃ w, vs[d]? = some w := ⟨vs[d], List.getElem?_eq_getElem (by omega)⟩
      refine ⟨w, ?_, ?_⟩
      · rw [← slice_get hd, h4]; exact hw
      · apply ih (pw := iw) (iw := pw)
        have := congrArg (·[d]?) h1
        simp only [List.getElem?_map, List.getElem?_range hd, Option.map_some, hw, Option.some.injEq] at this
        exact this

/-! ## The root -/

def setRootP (st : CState) (i : Nat) (v : UInt16) : CState :=
  { st with root := st.root.set i v, indices := if st.shared then st.indices.set i v else st.indices }

def croot (L : List Nat → List UInt8) : List Nat → CState → CState
  | [], st => st
  | i :: is, st =>
    croot L is (setRootP (cbuild L (lev i) .indexMap .propMap st [i]).1 i (cbuild L (lev i) .indexMap .propMap st [i]).2)

theorem rootLevels_eq {i : Nat} (h : i < 64) : rootLevels i = .ok (lev i) := by
  have : ∀ i : Fin 64, rootLevels i.val = .ok (lev i.val) := by decide
  exact this ⟨i, h⟩

theorem cbuild_root {L} (n pw iw st p) (h : st.root.length = 64) : (cbuild L n pw iw st p).1.root.length = 64 := by
  refine cbuild_pres (P := fun st => st.root.length = 64) ?_ ?_ n pw iw st p h
  · intro w st p h
    unfold addLeaf
    split
    · exact h
    · cases w <;> exact h
  · intro w st block _ h
    unfold addIndex
    split
    · exact h
    · cases w <;> exact h

theorem setRoot_ok {st : CState} (h : st.root.length = 64) {i : Nat} (hi : i < 64) (v : UInt16) :
    st.setRoot i v = .ok (setRootP st i v) := by
  unfold CState.setRoot
  rw [goSet_ok (by omega)]
  rfl

theorem rootLoop_eq {t IB PB F} (h : Inv t IB PB F) (hP : PB.length ≤ 1023) (src : List UInt16) : ∀ (i : Nat) (st : CState)
    (_ : i + src.length ≤ 64) (_ : st.root.length = 64)
    (_ : ∀ (j : Nat) (v : UInt16), src[j]? = some v → SlotOK IB PB [i + j] v.toNat),
    rootLoop t i src st = .ok (croot (leafF F) (List.range' i src.length) st) := by
  induction src with
  | nil => intro i st _ _ _; rfl
  | cons v src ih =>
    intro i st hi hr hs
    rw [List.length_cons] at hi
    unfold rootLoop
    rw [rootLevels_eq (by omega)]
    simp only [bind, Except.bind]
    rw [build_eq h hP (lev i) .indexMap .propMap st v [i] (levelOK_root i) (hs 0 v rfl)]
    simp only
    have hr' := cbuild_root (L := leafF F) (lev i) .indexMap .propMap st [i] hr
    rw [setRoot_ok hr' (by omega)]
    simp only
    rw [ih (i + 1) _ (by omega) (by simp [setRootP, hr']) (fun j w hj => by
      have := hs (j + 1) w (by simpa using hj)
      rwa [show i + (j + 1) = i + 1 + j by omega] at this)]
    rfl

theorem getMap_setRootP (st : CState) (i v w) : (setRootP st i v).getMap w = st.getMap w := by cases w <;> rfl

theorem ext_setRootP (st : CState) (i v) : Ext st (setRootP st i v) := by
  intro w key v' h
  rw [getMap_setRootP]; exact h

theorem ext_setRootP' (st : CState) (i v) : Ext (setRootP st i v) st := by
  intro w key v' h
  rw [getMap_setRootP] at h; exact h

theorem setRootP_ilen (st : CState) (i v) : (setRootP st i v).indices.length = st.indices.length := by
  unfold setRootP
  simp only
  split <;> simp

theorem setRootP_fits {L C0 C1 a b st} (h : Fits L C0 C1 a b st) (i v) : Fits L C0 C1 a b (setRootP st i v) := by
  obtain ⟨h1, h2⟩ := h
  have m0 := missing_mono (L := L) (C := C0) (ext_setRootP st i v)
  have m1 := missing_mono (L := L) (C := C1) (ext_setRootP st i v)
  refine ⟨?_, ?_⟩
  · show st.props.length + _ ≤ a
    omega
  · rw [setRootP_ilen]; omega

theorem setRootP_sound {st} (h : Small st → Sound st) {i : Nat} (hi : i < 64) (v : UInt16) :
    Small (setRootP st i v) → Sound (setRootP st i v) := by
  intro hs
  have hs' : Small st := by
    unfold Small at hs ⊢
    rw [setRootP_ilen] at hs
    exact hs
  have h' := h hs'
  have hi1 := h'.i1
  refine ⟨h'.p64, by rw [setRootP_ilen]; exact h'.i64, by rw [setRootP_ilen]; exact h'.i1, by simp [setRootP, h'.root], ?_, ?_, ?_⟩
  · intro w key v' hg
    rw [getMap_setRootP] at hg
    rcases h'.maps _ _ _ hg with k | ⟨vs, k1, k2, k3, k4⟩
    · exact .inl k
    · refine .inr ⟨vs, k1, k2, k3, ?_⟩
      unfold setRootP
      simp only
      split
      · rw [slice_set k3 hi]; exact k4
      · exact k4
  · intro hsh
    have hsh' : st.shared = true := hsh
    unfold setRootP
    simp only [hsh', if_true]
    rw [← h'.share hsh', List.take_set]
  · rw [setRootP_ilen]; exact h'.capped

theorem croot_ext {L} (is : List Nat) : ∀ st, Ext st (croot L is st) := by
  induction is with
  | nil => intro st; exact Ext.refl _
  | cons i is ih =>
    intro st
    exact ((cbuild_spec (lev i) .indexMap .propMap st [i]).1.trans (ext_setRootP _ _ _)).trans (ih _)

theorem lev_le (i : Nat) : lev i ≤ 2 := by unfold lev; split <;> (try split) <;> omega

theorem croot_fits {L C0 C1 a b} (hL : ∀ p, (L p).length = 64) (hC : Covers L C0 C1) (is : List Nat) :
    ∀ st, Fits L C0 C1 a b st → Fits L C0 C1 a b (croot L is st) := by
  induction is with
  | nil => intro st h; exact h
  | cons i is ih =>
    intro st h
    exact ih _ (setRootP_fits (cbuild_fits hL hC _ _ _ _ _ (by simp) (by decide) (lev_le i) (fun _ => rfl) h) _ _)

theorem croot_sound {L} (hL : ∀ p, (L p).length = 64) (is : List Nat) (his : ∀ i ∈ is, i < 64) :
    ∀ st, (Small st → Sound st) → Small (croot L is st) → Sound (croot L is st) := by
  induction is with
  | nil => intro st h; exact h
  | cons i is ih =>
    intro st h
    exact ih (fun j hj => his j (List.mem_cons_of_mem _ hj)) _ (setRootP_sound (cbuild_sound hL _ _ _ _ _ h) (his i (List.mem_cons_self ..)) _)

/-- Building blocks does not touch the root. -/
theorem cbuild_keeps {L} (n pw iw st p) : (cbuild L n pw iw st p).1.root = st.root ∧ (cbuild L n pw iw st p).1.cap = st.cap := by
  have := cbuild_pres (L := L) (P := fun s => s.root = st.root ∧ s.cap = st.cap) ?_ ?_ n pw iw st p ⟨rfl, rfl⟩
  · exact this
  · intro w st' p h
    unfold addLeaf
    split
    · exact h
    · cases w <;> exact h
  · intro w st' block _ h
    unfold addIndex
    split
    · exact h
    · cases w <;> exact h

theorem croot_cap {L} (is : List Nat) : ∀ st, (croot L is st).cap = st.cap := by
  induction is with
  | nil => intro st; rfl
  | cons i is ih =>
    intro st
    unfold croot
    rw [ih]
    exact (cbuild_keeps (L := L) _ _ _ _ _).2

theorem croot_get {L} (is : List Nat) : ∀ st, is.Nodup → (∀ i ∈ is, i < st.root.length) →
    (∀ i, i ∉ is → (croot L is st).root[i]? = st.root[i]?) ∧
    (∀ i ∈ is, ∃ v, (croot L is st).root[i]? = some v ∧ cfind L (lev i) .indexMap .propMap (croot L is st) [i] = some v) := by
  induction is with
  | nil => intro st _ _; exact ⟨fun _ _ => rfl, fun i hi => absurd hi (by simp)⟩
  | cons i is ih =>
    intro st hn hl
    obtain ⟨hn1, hn2⟩ := List.nodup_cons.mp hn
    have hroot := (cbuild_keeps (L := L) (lev i) .indexMap .propMap st [i]).1
    have hf := (cbuild_spec (L := L) (lev i) .indexMap .propMap st [i]).2
    unfold croot
    generalize cbuild L (lev i) .indexMap .propMap st [i] = q at hroot hf
    obtain ⟨st1, v⟩ := q
    simp only at hroot hf ⊢
    have hr2 : (setRootP st1 i v).root = st.root.set i v := by
      show st1.root.set i v = _
      rw [hroot]
    obtain ⟨h1, h2⟩ := ih (setRootP st1 i v) hn2 (fun j hj => by
      rw [hr2, List.length_set]; exact hl j (List.mem_cons_of_mem _ hj))
    refine ⟨?_, ?_⟩
    · intro j hj
      simp only [List.mem_cons, not_or] at hj
      rw [h1 j hj.2, hr2, List.getElem?_set_ne (Ne.symm hj.1)]
    · intro j hj
      rcases List.mem_cons.mp hj with rfl | hj
      · refine ⟨v, ?_, ?_⟩
        · rw [h1 j hn1, hr2, List.getElem?_set_self (hl j (List.mem_cons_self ..))]
        · exact cfind_mono ((ext_setRootP st1 j v).trans (croot_ext is _)) hf
      · exact h2 j hj

end Textseg.Gen
