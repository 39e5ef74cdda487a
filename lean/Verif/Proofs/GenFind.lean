import Verif.Proofs.GenCompact
/-!
# What compaction leaves behind

`cfind` looks up, in the maps of the compaction, the block that stands for the subtree at a path.
-/

namespace Textseg.Gen
open Textseg Spec

/-! ## Lookup in the maps -/

theorem get_put (m : BlockMap) (k k' : List UInt8) (v : UInt16) :
    (m.put k v).get k' = if k' = k then some v else m.get k' := by
  unfold BlockMap.put BlockMap.get
  rw [List.lookup_cons]
  by_cases h : k' = k
  · subst h; simp
  · rw [if_neg h]
    have : (k' == k) = false := by simpa using h
    rw [this]

theorem getMap_putMap (st : CState) (w w' : Which) (k k' : List UInt8) (v : UInt16) :
    ((st.putMap w k v).getMap w').get k' = if w' = w ∧ k' = k then some v else (st.getMap w').get k' := by
  cases w <;> cases w' <;> simp [CState.putMap, CState.getMap, get_put]

/-- The second state knows all the blocks of the first. -/
def Ext (st st' : CState) : Prop := ∀ w key v, (st.getMap w).get key = some v → (st'.getMap w).get key = some v

theorem Ext.refl (st) : Ext st st := fun _ _ _ h => h
theorem Ext.trans {a b c} (h : Ext a b) (h' : Ext b c) : Ext a c := fun w k v hh => h' w k v (h w k v hh)

theorem ext_putMap {st st' : CState} (hm : ∀ w, st'.getMap w = st.getMap w) {w : Which} {key : List UInt8}
    (hn : (st.getMap w).get key = none) (v : UInt16) : Ext st (st'.putMap w key v) := by
  intro w' key' v' h'
  rw [getMap_putMap]
  split
  · next hc =>
    obtain ⟨rfl, rfl⟩ := hc
    rw [hn] at h'
    exact absurd h' (by simp)
  · rw [hm]; exact h'

theorem addLeaf_spec (w : Which) (st : CState) (block : List UInt8) :
    Ext st (addLeaf w st block).1 ∧ ((addLeaf w st block).1.getMap w).get block = some (addLeaf w st block).2 := by
  unfold addLeaf
  split
  · next i hi => exact ⟨Ext.refl _, hi⟩
  · next hi =>
    refine ⟨ext_putMap (fun w => by cases w <;> rfl) hi _, ?_⟩
    simp only [getMap_putMap]
    simp

theorem addIndex_spec (w : Which) (st : CState) (block : List UInt16) :
    Ext st (addIndex w st block).1 ∧ ((addIndex w st block).1.getMap w).get (ikey block) = some (addIndex w st block).2 := by
  unfold addIndex
  split
  · next i hi => exact ⟨Ext.refl _, hi⟩
  · next hi =>
    refine ⟨ext_putMap (fun w => by cases w <;> rfl) hi _, ?_⟩
    simp only [getMap_putMap]
    simp

def allSome {α : Type} : List (Option α) → Option (List α)
  | [] => some []
  | none :: _ => none
  | some x :: rest => (allSome rest).map (x :: ·)

theorem allSome_eq {α : Type} (l : List (Option α)) (vs : List α) : allSome l = some vs ↔ l = vs.map some := by
  induction l generalizing vs with
  | nil => cases vs <;> simp [allSome]
  | cons x l ih =>
    cases x with
    | none => cases vs <;> simp [allSome]
    | some x =>
      unfold allSome
      cases vs with
      | nil => simp
      | cons v vs =>
        simp only [Option.map_eq_some_iff, List.map_cons, List.cons.injEq, Option.some.injEq]
        constructor
        · rintro ⟨a, ha, rfl, rfl⟩; exact ⟨rfl, (ih _).mp ha⟩
        · rintro ⟨rfl, h⟩; exact ⟨vs, (ih _).mpr h, rfl, rfl⟩

def cfind (L : List Nat → List UInt8) : Nat → Which → Which → CState → List Nat → Option UInt16
  | 0, propW, _, st, p => (st.getMap propW).get (L p)
  | n + 1, propW, indexW, st, p =>
    (allSome ((List.range 64).map fun d => cfind L n indexW propW st (p ++ [d]))).bind fun vs =>
      (st.getMap indexW).get (ikey vs)

theorem cfind_succ {L n pw iw st p v} : cfind L (n + 1) pw iw st p = some v ↔
    ∃ vs, (List.range 64).map (fun d => cfind L n iw pw st (p ++ [d])) = vs.map some ∧
      (st.getMap iw).get (ikey vs) = some v := by
  rw [cfind]
  rw [Option.bind_eq_some_iff]
  constructor
  · rintro ⟨vs, h1, h2⟩; exact ⟨vs, (allSome_eq _ _).mp h1, h2⟩
  · rintro ⟨vs, h1, h2⟩; exact ⟨vs, (allSome_eq _ _).mpr h1, h2⟩

theorem map_some_inj {α : Type} {a b : List α} (h : a.map some = b.map some) : a = b := by
  induction a generalizing b with
  | nil => cases b <;> simp_all
  | cons x a ih =>
    cases b with
    | nil => simp at h
    | cons y b =>
      simp only [List.map_cons, List.cons.injEq, Option.some.injEq] at h
      rw [h.1, ih h.2]

theorem map_all_some {α β : Type} {f g : α → Option β} {ds : List α} {vs : List β} (h : ds.map f = vs.map some)
    (hfg : ∀ d v, f d = some v → g d = some v) : ds.map g = vs.map some := by
  induction ds generalizing vs with
  | nil => cases vs <;> simp_all
  | cons d ds ih =>
    cases vs with
    | nil => simp at h
    | cons v vs =>
      simp only [List.map_cons, List.cons.injEq] at h ⊢
      exact ⟨hfg _ _ h.1, ih h.2⟩

theorem cfind_mono {L} : ∀ {n pw iw st st'}, Ext st st' → ∀ {p v}, cfind L n pw iw st p = some v →
    cfind L n pw iw st' p = some v := by
  intro n
  induction n with
  | zero => intro pw iw st st' h p v hf; exact h _ _ _ hf
  | succ n ih =>
    intro pw iw st st' h p v hf
    obtain ⟨vs, h1, h2⟩ := cfind_succ.mp hf
    exact cfind_succ.mpr ⟨vs, map_all_some h1 (fun d v => ih h), h _ _ _ h2⟩

theorem cfill_spec {f : CState → Nat → CState × UInt16} {find : CState → Nat → Option UInt16}
    (hmono : ∀ st st' d v, Ext st st' → find st d = some v → find st' d = some v)
    (hf : ∀ st d, Ext st (f st d).1 ∧ find (f st d).1 d = some (f st d).2) (ds : List Nat) (st : CState) :
    Ext st (cfill f st ds).1 ∧ ds.map (find (cfill f st ds).1) = (cfill f st ds).2.map some := by
  induction ds generalizing st with
  | nil => exact ⟨Ext.refl _, rfl⟩
  | cons d ds ih =>
    obtain ⟨e1, h1⟩ := hf st d
    obtain ⟨e2, h2⟩ := ih (f st d).1
    refine ⟨e1.trans e2, ?_⟩
    simp only [cfill, List.map_cons, h2]
    rw [hmono _ _ _ _ e2 h1]

theorem cbuild_spec {L} : ∀ (n : Nat) (pw iw : Which) (st : CState) (p : List Nat), Ext st (cbuild L n pw iw st p).1 ∧
    cfind L n pw iw (cbuild L n pw iw st p).1 p = some (cbuild L n pw iw st p).2 := by
  intro n
  induction n with
  | zero => intro pw iw st p; exact addLeaf_spec pw st (L p)
  | succ n ih =>
    intro pw iw st p
    obtain ⟨e1, h1⟩ := cfill_spec (f := fun st d => cbuild L n iw pw st (p ++ [d]))
      (find := fun st d => cfind L n iw pw st (p ++ [d])) (fun st st' d v h => cfind_mono h) (fun st d => ih iw pw st (p ++ [d]))
      (List.range 64) st
    unfold cbuild
    obtain ⟨e2, h2⟩ := addIndex_spec iw (cfill (fun st d => cbuild L n iw pw st (p ++ [d])) st (List.range 64)).1
      (cfill (fun st d => cbuild L n iw pw st (p ++ [d])) st (List.range 64)).2
    exact ⟨e1.trans e2, cfind_succ.mpr ⟨_, map_all_some h1 (fun d v => cfind_mono e2), h2⟩⟩

/-- A block that is already there is not built again. -/
theorem cbuild_found {L} : ∀ {n : Nat} {pw iw : Which} {st : CState} {p : List Nat} {v : UInt16},
    cfind L n pw iw st p = some v → cbuild L n pw iw st p = (st, v) := by
  intro n
  induction n with
  | zero =>
    intro pw iw st p v h
    unfold cbuild addLeaf
    rw [show (st.getMap pw).get (L p) = some v from h]
  | succ n ih =>
    intro pw iw st p v h
    obtain ⟨vs, h1, h2⟩ := cfind_succ.mp h
    have key : ∀ ds vs, ds.map (fun d => cfind L n iw pw st (p ++ [d])) = vs.map some →
        cfill (fun st d => cbuild L n iw pw st (p ++ [d])) st ds = (st, vs) := by
      intro ds
      induction ds with
      | nil => intro vs hv; cases vs <;> simp_all [cfill]
      | cons d ds ihd =>
        intro vs hv
        cases vs with
        | nil => simp at hv
        | cons v vs =>
          simp only [List.map_cons, List.cons.injEq] at hv
          simp only [cfill, ih hv.1, ihd vs hv.2]
    unfold cbuild
    rw [key _ _ h1]
    unfold addIndex
    simp only [h2]

/-! ## Invariants -/

/-- What every addition of a block preserves, every compaction preserves. -/
theorem cbuild_pres {L} (P : CState → Prop)
    (hleaf : ∀ w st p, P st → P (addLeaf w st (L p)).1)
    (hidx : ∀ w st block, block.length = 64 → P st → P (addIndex w st block).1) :
    ∀ (n : Nat) (pw iw : Which) (st : CState) (p : List Nat), P st → P (cbuild L n pw iw st p).1 := by
  intro n
  induction n with
  | zero => intro pw iw st p h; exact hleaf _ _ _ h
  | succ n ih =>
    intro pw iw st p h
    unfold cbuild
    refine hidx _ _ _ (by rw [cfill_length]; simp) ?_
    have key : ∀ ds st, P st → P (cfill (fun st d => cbuild L n iw pw st (p ++ [d])) st ds).1 := by
      intro ds
      induction ds with
      | nil => intro st h; exact h
      | cons d ds ihd => intro st h; exact ihd _ (ih _ _ _ _ h)
    exact key _ _ h

/-- Two paths with equal subtrees. -/
def SameTree (L : List Nat → List UInt8) (n : Nat) (p r : List Nat) : Prop := ∀ s : List Nat, s.length = n → L (p ++ s) = L (r ++ s)

theorem SameTree.child {L n p r} (h : SameTree L (n + 1) p r) (d : Nat) : SameTree L n (p ++ [d]) (r ++ [d]) := by
  intro s hs
  have := h (d :: s) (by simp [hs])
  simpa using this

theorem cfind_same {L} : ∀ {n pw iw st p r}, SameTree L n p r → cfind L n pw iw st p = cfind L n pw iw st r := by
  intro n
  induction n with
  | zero =>
    intro pw iw st p r h
    have := h [] rfl
    simp only [List.append_nil] at this
    unfold cfind
    rw [this]
  | succ n ih =>
    intro pw iw st p r h
    unfold cfind
    have : (List.range 64).map (fun d => cfind L n iw pw st (p ++ [d])) =
        (List.range 64).map (fun d => cfind L n iw pw st (r ++ [d])) := by
      apply List.map_congr_left
      intro d _
      exact ih (h.child d)
    rw [this]

structure Combo where
  n : Nat
  pw : Which
  iw : Which
  path : List Nat

/-- How many of the subtrees listed in `C` have no block yet. -/
def missing (L : List Nat → List UInt8) (C : List Combo) (st : CState) : Nat :=
  C.countP fun c => (cfind L c.n c.pw c.iw st c.path).isNone

theorem missing_mono {L C st st'} (h : Ext st st') : missing L C st' ≤ missing L C st := by
  apply List.countP_mono_left
  intro c _ hc
  cases hf : cfind L c.n c.pw c.iw st c.path with
  | none => rfl
  | some v => rw [cfind_mono h hf] at hc; exact absurd hc (by simp)

theorem countP_lt {α : Type} {p q : α → Bool} {l : List α} (h : ∀ x, p x = true → q x = true) {a : α} (ha : a ∈ l)
    (hp : p a = false) (hq : q a = true) : l.countP p + 1 ≤ l.countP q := by
  induction l with
  | nil => simp at ha
  | cons x l ih =>
    simp only [List.countP_cons]
    have hle : l.countP p ≤ l.countP q := List.countP_mono_left (fun x _ => h x)
    rcases List.mem_cons.mp ha with rfl | ha
    · rw [hp, hq]; simp; omega
    · have := ih ha
      by_cases hx : p x = true
      · rw [hx, h x hx]; simp; omega
      · simp only [Bool.not_eq_true] at hx
        rw [hx]
        have h0 : (if false = true then 1 else 0) = 0 := by simp
        rw [h0]
        split <;> omega

theorem missing_lt {L C st st'} (h : Ext st st') {c : Combo} (hc : c ∈ C)
    (h1 : cfind L c.n c.pw c.iw st c.path = none) {v} (h2 : cfind L c.n c.pw c.iw st' c.path = some v) :
    missing L C st' + 1 ≤ missing L C st := by
  refine countP_lt ?_ hc (by rw [h2]; rfl) (by rw [h1]; rfl)
  intro c hc
  cases hf : cfind L c.n c.pw c.iw st c.path with
  | none => rfl
  | some v => rw [cfind_mono h hf] at hc; exact absurd hc (by simp)

/-- Every subtree that a compaction meets is listed. -/
structure Covers (L : List Nat → List UInt8) (C0 C1 : List Combo) : Prop where
  leaf : ∀ pw iw p, pw ≠ iw → ∃ r, SameTree L 0 p r ∧ ⟨0, pw, iw, r⟩ ∈ C0
  one : ∀ pw iw p, pw ≠ iw → p ≠ [] → ∃ r, SameTree L 1 p r ∧ ⟨1, pw, iw, r⟩ ∈ C1
  two : ∀ p, p ≠ [] → ∃ r, SameTree L 2 p r ∧ ⟨2, .indexMap, .propMap, r⟩ ∈ C1

/-- The sizes, with room for the subtrees that have no block yet. -/
def Fits (L : List Nat → List UInt8) (C0 C1 : List Combo) (a b : Nat) (st : CState) : Prop :=
  st.props.length + 64 * missing L C0 st ≤ a ∧ st.indices.length + 64 * missing L C1 st ≤ b

theorem addIndex_found {w st block} : (∃ v, (st.getMap w).get (ikey block) = some v ∧ addIndex w st block = (st, v)) ∨
    ((st.getMap w).get (ikey block) = none ∧ (addIndex w st block).1.props = st.props ∧
      (addIndex w st block).1.indices = st.indices ++ block) := by
  unfold addIndex
  split
  · next i hi => exact .inl ⟨i, hi, rfl⟩
  · next hi => exact .inr ⟨hi, by cases w <;> rfl, by cases w <;> rfl⟩

theorem addLeaf_found {w st block} : (∃ v, (st.getMap w).get block = some v ∧ addLeaf w st block = (st, v)) ∨
    ((st.getMap w).get block = none ∧ (addLeaf w st block).1.indices = st.indices ∧
      (addLeaf w st block).1.props = st.props ++ block) := by
  unfold addLeaf
  split
  · next i hi => exact .inl ⟨i, hi, rfl⟩
  · next hi => exact .inr ⟨hi, by cases w <;> rfl, by cases w <;> rfl⟩

theorem cfill_fits {P : CState → Prop} {f : CState → Nat → CState × UInt16} (hf : ∀ st d, P st → P (f st d).1) (ds : List Nat)
    (st : CState) (h : P st) : P (cfill f st ds).1 := by
  induction ds generalizing st with
  | nil => exact h
  | cons d ds ih => exact ih _ (hf _ _ h)

theorem cbuild_fits {L C0 C1 a b} (hL : ∀ p, (L p).length = 64) (hC : Covers L C0 C1) :
    ∀ (n : Nat) (pw iw : Which) (st : CState) (p : List Nat), p ≠ [] → pw ≠ iw → n ≤ 2 → (n = 2 → iw = .propMap) →
    Fits L C0 C1 a b st → Fits L C0 C1 a b (cbuild L n pw iw st p).1 := by
  intro n
  induction n with
  | zero =>
    intro pw iw st p _ hne _ _ ⟨h1, h2⟩
    obtain ⟨e1, e2⟩ := addLeaf_spec pw st (L p)
    show Fits L C0 C1 a b (addLeaf pw st (L p)).1
    rcases addLeaf_found (w := pw) (st := st) (block := L p) with ⟨v, _, hv⟩ | ⟨hn, g1, g2⟩
    · rw [hv]; exact ⟨h1, h2⟩
    · obtain ⟨r, hr, hm⟩ := hC.leaf pw iw p hne
      have l1 := missing_lt (L := L) e1 hm ((cfind_same hr).symm.trans hn)
        ((cfind_same (L := L) (st := (addLeaf pw st (L p)).1) hr).symm.trans e2)
      have l2 := missing_mono (L := L) (C := C1) e1
      refine ⟨?_, ?_⟩
      · rw [g2, List.length_append, hL]; omega
      · rw [g1]; omega
  | succ n ih =>
    intro pw iw st p hp hne hn2 hw h
    have hfit := cfill_fits (P := Fits L C0 C1 a b) (f := fun st d => cbuild L n iw pw st (p ++ [d]))
      (fun st d h => ih iw pw st (p ++ [d]) (by simp) (Ne.symm hne) (by omega) (by omega) h) (List.range 64) st h
    obtain ⟨_, hfound⟩ := cfill_spec (f := fun st d => cbuild L n iw pw st (p ++ [d]))
      (find := fun st d => cfind L n iw pw st (p ++ [d])) (fun st st' d v h => cfind_mono h)
      (fun st d => cbuild_spec n iw pw st (p ++ [d])) (List.range 64) st
    have hlen := cfill_length (fun st d => cbuild L n iw pw st (p ++ [d])) st (List.range 64)
    unfold cbuild
    generalize cfill (fun st d => cbuild L n iw pw st (p ++ [d])) st (List.range 64) = q at hfit hfound hlen
    obtain ⟨st1, vs⟩ := q
    simp only at hfit hfound hlen ⊢
    obtain ⟨h1, h2⟩ := hfit
    obtain ⟨e1, e2⟩ := addIndex_spec iw st1 vs
    rcases addIndex_found (w := iw) (st := st1) (block := vs) with ⟨v, _, hv⟩ | ⟨hn, g1, g2⟩
    · rw [hv]; exact ⟨h1, h2⟩
    · have before : cfind L (n + 1) pw iw st1 p = none := by
        cases hf : cfind L (n + 1) pw iw st1 p with
        | none => rfl
        | some v =>
          obtain ⟨vs', k1, k2⟩ := cfind_succ.mp hf
          rw [hfound] at k1
          rw [← map_some_inj k1, hn] at k2
          exact absurd k2 (by simp)
      have after : cfind L (n + 1) pw iw (addIndex iw st1 vs).1 p = some (addIndex iw st1 vs).2 :=
        cfind_succ.mpr ⟨vs, map_all_some hfound (fun d v => cfind_mono e1), e2⟩
      have hm : ∃ r, SameTree L (n + 1) p r ∧ ⟨n + 1, pw, iw, r⟩ ∈ C1 := by
        have : n = 0 ∨ n = 1 := by omega
        rcases this with rfl | rfl
        · exact hC.one pw iw p hne hp
        · have := hw rfl
          subst this
          have : pw = .indexMap := by cases pw <;> simp_all
          subst this
          exact hC.two p hp
      obtain ⟨r, hr, hm⟩ := hm
      have l1 := missing_lt (L := L) e1 hm ((cfind_same hr).symm.trans before)
        ((cfind_same (L := L) (st := (addIndex iw st1 vs).1) hr).symm.trans after)
      have l2 := missing_mono (L := L) (C := C0) e1
      have hlen64 : vs.length = 64 := by rw [hlen]; simp
      refine ⟨?_, ?_⟩
      · rw [g1]; omega
      · rw [g2, List.length_append, hlen64]; omega

end Textseg.Gen
