import Verif.Proofs.MemHeap
/-!
# The code of `ensureProps`, `Set` and `BitwiseOr` does what the model says
-/

namespace Textseg.GoMem
open Textseg.GoLang (TyId tyInt tyU8 Halt importName wrap)
set_option linter.unusedSimpArgs false

def stmtAt : Nat → Stmts → Stmt
  | _, .nil => .skip
  | 0, .cons s _ => s
  | n + 1, .cons _ ss => stmtAt n ss

def bodyOf : Stmt → Stmts
  | .range _ _ _ b => b
  | .block b => b
  | _ => .nil

/-- The body of the loop in `ensureProps`. -/
def ensureLoop : Stmts := bodyOf (stmtAt 8 fn_ensureProps.body)

/-- The variables of `ensureProps` in the loop. -/
def envE (p a0 n : Nat) (r : Int32) (pen fin : UInt8) (cur : Nat) : Env :=
  [(name! "currentBlockIdx", .int tyInt cur), (name! "final", .u8 tyU8 fin), (name! "penultimate", .u8 tyU8 pen),
    (name! "nested", .slice noName tB (some ⟨a0, 0, n - 2, 4⟩)), (name! "byteLen", .int tyInt n),
    (name! "asU8", .slice noName tB (some ⟨a0, 0, n, 4⟩)), (name! "r", .rune tyRune r), (name! "t", .ptr tTree p)]

/-- What changes when the tree changes: the tree and its arrays, which may be new ones. -/
structure Moves (p : Nat) (h : Heap) (x : Loc) (h' : Heap) (x' : Loc) : Prop where
  len : h.length ≤ h'.length
  keep : ∀ a, a < h.length → a ≠ p → a ≠ x.aP → a ≠ x.aI → h'[a]? = h[a]?
  aP : x'.aP = x.aP ∨ h.length ≤ x'.aP
  aI : x'.aI = x.aI ∨ h.length ≤ x'.aI

theorem Moves.refl (p : Nat) (h : Heap) (x : Loc) : Moves p h x h x := ⟨Nat.le_refl _, fun _ _ _ _ _ => rfl, .inl rfl, .inl rfl⟩

theorem Moves.trans {p : Nat} {h h' h'' : Heap} {x x' x'' : Loc} (a : Moves p h x h' x') (b : Moves p h' x' h'' x'') : Moves p h x h'' x'' where
  len := Nat.le_trans a.len b.len
  keep := by
    intro c hc h1 h2 h3
    have := a.aP
    have := a.aI
    have := a.len
    rw [b.keep c (by omega) h1 (by omega) (by omega), a.keep c hc h1 h2 h3]
  aP := by have := a.aP; have := b.aP; have := a.len; omega
  aI := by have := a.aI; have := b.aI; have := a.len; omega

theorem TreeAt.getI {h p x t} (ht : TreeAt h p x t) {k : Nat} {v : UInt16} (hv : t.indices[k]? = some v) :
    loadElem x.aI k h = .ok (.u16 tyU16 v, h) := by
  refine loadElem_some ht.inds ?_
  rw [List.getElem?_append_left (by rw [List.length_map]; exact lt_of_some hv), List.getElem?_map, hv]; rfl

theorem TreeAt.getP {h p x t} (ht : TreeAt h p x t) {k : Nat} {v : UInt8} (hv : t.rawProps[k]? = some v) :
    loadElem x.aP k h = .ok (.u8 tyU8 v, h) := by
  refine loadElem_some ht.props ?_
  rw [List.getElem?_append_left (by rw [List.length_map]; exact lt_of_some hv), List.getElem?_map, hv]; rfl

theorem indexStep_none {t : Gen.Tree} {cur k : Nat} {b : UInt8} (e : cur <<< 6 + (b &&& 63).toNat = k) (hv : t.indices[k]? = none) :
    Gen.indexStep t cur b = .error .indexOutOfRange := by
  unfold Gen.indexStep
  simp only [e, goIndex, hv]; rfl

theorem indexStep_zero {t : Gen.Tree} {cur k : Nat} {b : UInt8} (e : cur <<< 6 + (b &&& 63).toNat = k) (hv : t.indices[k]? = some 0) :
    Gen.indexStep t cur b = .ok ({ t with indices := (t.indices ++ List.replicate 64 0).set k (UInt16.ofNat (t.indices.length >>> 6)) },
      t.indices.length >>> 6) := by
  unfold Gen.indexStep
  have := lt_of_some hv
  simp only [e, goIndex, hv, Gen.goSet, bind, Except.bind, if_true]
  rw [if_pos (by rw [List.length_append]; omega)]

theorem indexStep_some {t : Gen.Tree} {cur k : Nat} {b : UInt8} (e : cur <<< 6 + (b &&& 63).toNat = k) {v : UInt16} (hv : t.indices[k]? = some v)
    (h0 : v ≠ 0) : Gen.indexStep t cur b = .ok (t, v.toNat) := by
  unfold Gen.indexStep
  simp only [e, goIndex, hv, bind, Except.bind, if_neg h0]

theorem at_eq (cur : Nat) (b : UInt8) : cur <<< 6 + (b &&& 63).toNat = 64 * cur + (b.toNat &&& 63) := by
  rw [Nat.shiftLeft_eq, UInt8.toNat_and, show (63 : UInt8).toNat = 63 from rfl]; omega

theorem u16_conv (n : Nat) : UInt16.ofNat ((n : Int).emod 65536).toNat = UInt16.ofNat n := by
  have h1 : ((n : Int).emod 65536).toNat = n % 65536 := by
    show ((n : Int) % 65536).toNat = n % 65536
    omega
  rw [h1, ← UInt16.toNat_inj]
  simp

theorem TreeAt.p_ne_aI {h p x t} (ht : TreeAt h p x t) : p ≠ x.aI := by
  intro hh; have h1 := ht.inds; rw [← hh, ht.obj] at h1; cases h1
theorem TreeAt.p_ne_aP {h p x t} (ht : TreeAt h p x t) : p ≠ x.aP := by
  intro hh; have h1 := ht.props; rw [← hh, ht.obj] at h1; cases h1
theorem TreeAt.p_ge {h p x t} (ht : TreeAt h p x t) : 2 ≤ p := by
  have h0 : p ≠ 0 := by intro hh; have h1 := ht.zero0; rw [← hh, ht.obj] at h1; cases h1
  have h0 : p ≠ 1 := by intro hh; have h1 := ht.zero1; rw [← hh, ht.obj] at h1; cases h1
  omega

theorem set_map_append {α : Type} (f : α → Val) (l : List α) (tl : List Val) {k : Nat} (hk : k < l.length) (v : α) :
    (l.map f ++ tl).set k (f v) = (l.set k v).map f ++ tl := by
  rw [List.set_append_left _ _ (by rw [List.length_map]; exact hk), List.map_set]

theorem TreeAt.setI {h p x t} (ht : TreeAt h p x t) {k : Nat} (hk : k < t.indices.length) (v : UInt16) :
    TreeAt (h.set x.aI (.arr ((t.indices.map (Val.u16 tyU16) ++ x.tI).set k (.u16 tyU16 v)))) p x { t with indices := t.indices.set k v } where
  obj := by
    rw [set_other ht.p_ne_aI.symm, ht.obj]
    simp [treeFields]
  props := by rw [set_other ht.ne.symm, ht.props]
  inds := by
    rw [set_self ht.inds, set_map_append _ _ _ hk]
  zero0 := by rw [set_other (by have := ht.geI; omega)]; exact ht.zero0
  zero1 := by rw [set_other (by have := ht.geI; omega)]; exact ht.zero1
  geP := ht.geP
  geI := ht.geI
  ne := ht.ne
  capP := ht.capP
  capI := by simpa using ht.capI

theorem TreeAt.setP {h p x t} (ht : TreeAt h p x t) {k : Nat} (hk : k < t.rawProps.length) (v : UInt8) :
    TreeAt (h.set x.aP (.arr ((t.rawProps.map (Val.u8 tyU8) ++ x.tP).set k (.u8 tyU8 v)))) p x { t with rawProps := t.rawProps.set k v } where
  obj := by
    rw [set_other ht.p_ne_aP.symm, ht.obj]
    simp [treeFields]
  inds := by rw [set_other ht.ne, ht.inds]
  props := by
    rw [set_self ht.props, set_map_append _ _ _ hk]
  zero0 := by rw [set_other (by have := ht.geP; omega)]; exact ht.zero0
  zero1 := by rw [set_other (by have := ht.geP; omega)]; exact ht.zero1
  geP := ht.geP
  geI := ht.geI
  ne := ht.ne
  capP := by simpa using ht.capP
  capI := ht.capI

theorem Moves.setI {h p x t} (_ht : TreeAt h p x t) (o : Obj) : Moves p h x (h.set x.aI o) x where
  len := by rw [List.length_set]; exact Nat.le_refl _
  keep := fun _ _ _ _ h4 => set_other (Ne.symm h4)
  aP := .inl rfl
  aI := .inl rfl

theorem Moves.setP {h p x t} (_ht : TreeAt h p x t) (o : Obj) : Moves p h x (h.set x.aP o) x where
  len := by rw [List.length_set]; exact Nat.le_refl _
  keep := fun _ _ _ h3 _ => set_other (Ne.symm h3)
  aP := .inl rfl
  aI := .inl rfl

/-- `t.indices = append(t.indices, zeroIndexBlock...)` -/
theorem TreeAt.growI (m : Machine) {h p x t} (ht : TreeAt h p x t) : ∃ h1 a1 cap1 tl1,
    appendSlice m tI (some ⟨x.aI, 0, t.indices.length, x.capI⟩) (List.replicate 64 (.u16 tyU16 0)) h =
      .ok (some ⟨a1, 0, t.indices.length + 64, cap1⟩, h1) ∧
    h1[p]? = some (.struct tTree (treeFields x t)) ∧
    TreeAt (h1.set p (.struct tTree (treeFields { x with aI := a1, capI := cap1, tI := tl1 } { t with indices := t.indices ++ List.replicate 64 0 })))
      p { x with aI := a1, capI := cap1, tI := tl1 } { t with indices := t.indices ++ List.replicate 64 0 } ∧
    ∀ o, Moves p h x (h1.set p o) { x with aI := a1, capI := cap1, tI := tl1 } := by
  obtain ⟨h1, a1, cap1, tl1, happ, harr, hcap, hlen1, hkeep, hor⟩ := appendSlice_spec m tI (.u16 tyU16 0) (fun _ => rfl) ht.inds
    (by rw [List.length_map]; exact ht.capI) (xs := List.replicate 64 (.u16 tyU16 0)) (by simp)
  simp only [List.length_map, List.length_replicate] at happ harr hcap hor
  have hp := lt_of_some ht.obj
  have hP := lt_of_some ht.props
  have hI := lt_of_some ht.inds
  have hpI := ht.p_ne_aI
  have hpP := ht.p_ne_aP
  have hge := ht.p_ge
  have hgeP := ht.geP
  have hgeI := ht.geI
  have hne := ht.ne
  have hp1 : h1[p]? = _ := (hkeep p hp (by omega)).trans ht.obj
  refine ⟨h1, a1, cap1, tl1, happ, hp1, ?_, ?_⟩
  · exact {
      obj := set_self hp1
      props := by rw [set_other hpP, hkeep x.aP hP (by omega)]; exact ht.props
      inds := by rw [set_other (by show p ≠ a1; omega), harr]; simp only [List.map_append, List.map_replicate]
      zero0 := by rw [set_other (by omega), hkeep 0 (by omega) (by omega)]; exact ht.zero0
      zero1 := by rw [set_other (by omega), hkeep 1 (by omega) (by omega)]; exact ht.zero1
      geP := hgeP
      geI := by show 7 ≤ a1; omega
      ne := by show x.aP ≠ a1; omega
      capP := ht.capP
      capI := by simp only [List.length_append, List.length_replicate]; exact hcap }
  · intro o
    exact {
      len := by rw [List.length_set]; exact hlen1
      keep := by
        intro a ha h1 h2 h3
        rw [set_other (Ne.symm h1), hkeep a ha (by omega)]
      aP := .inl rfl
      aI := by show a1 = x.aI ∨ h.length ≤ a1; omega }

/-- `t.rawProps = append(t.rawProps, zeroPropertyBlock...)` -/
theorem TreeAt.growP (m : Machine) {h p x t} (ht : TreeAt h p x t) : ∃ h1 a1 cap1 tl1,
    appendSlice m tB (some ⟨x.aP, 0, t.rawProps.length, x.capP⟩) (List.replicate 64 (.u8 tyU8 0)) h =
      .ok (some ⟨a1, 0, t.rawProps.length + 64, cap1⟩, h1) ∧
    h1[p]? = some (.struct tTree (treeFields x t)) ∧
    TreeAt (h1.set p (.struct tTree (treeFields { x with aP := a1, capP := cap1, tP := tl1 } { t with rawProps := t.rawProps ++ List.replicate 64 0 })))
      p { x with aP := a1, capP := cap1, tP := tl1 } { t with rawProps := t.rawProps ++ List.replicate 64 0 } ∧
    ∀ o, Moves p h x (h1.set p o) { x with aP := a1, capP := cap1, tP := tl1 } := by
  obtain ⟨h1, a1, cap1, tl1, happ, harr, hcap, hlen1, hkeep, hor⟩ := appendSlice_spec m tB (.u8 tyU8 0) (fun _ => rfl) ht.props
    (by rw [List.length_map]; exact ht.capP) (xs := List.replicate 64 (.u8 tyU8 0)) (by simp)
  simp only [List.length_map, List.length_replicate] at happ harr hcap hor
  have hp := lt_of_some ht.obj
  have hP := lt_of_some ht.props
  have hI := lt_of_some ht.inds
  have hpI := ht.p_ne_aI
  have hpP := ht.p_ne_aP
  have hge := ht.p_ge
  have hgeP := ht.geP
  have hgeI := ht.geI
  have hne := ht.ne
  have hp1 : h1[p]? = _ := (hkeep p hp (by omega)).trans ht.obj
  refine ⟨h1, a1, cap1, tl1, happ, hp1, ?_, ?_⟩
  · exact {
      obj := set_self hp1
      inds := by rw [set_other hpI, hkeep x.aI hI (by omega)]; exact ht.inds
      props := by rw [set_other (by show p ≠ a1; omega), harr]; simp only [List.map_append, List.map_replicate]
      zero0 := by rw [set_other (by omega), hkeep 0 (by omega) (by omega)]; exact ht.zero0
      zero1 := by rw [set_other (by omega), hkeep 1 (by omega) (by omega)]; exact ht.zero1
      geI := hgeI
      geP := by show 7 ≤ a1; omega
      ne := by show a1 ≠ x.aI; omega
      capI := ht.capI
      capP := by simp only [List.length_append, List.length_replicate]; exact hcap }
  · intro o
    exact {
      len := by rw [List.length_set]; exact hlen1
      keep := by
        intro a ha h1 h2 h3
        rw [set_other (Ne.symm h1), hkeep a ha (by omega)]
      aI := .inl rfl
      aP := by show a1 = x.aP ∨ h.length ≤ a1; omega }

theorem step_spec (m : Machine) (hW : 32 ≤ m.W) (L d : Nat) (p a0 n : Nat) (r : Int32) (pen fin : UInt8) (cur : Nat) (h : Heap) (x : Loc) (t : Gen.Tree)
    (ht : TreeAt h p x t) (b : UInt8) (i : Nat) (A : List Val) (ha0 : h[a0]? = some (.arr A)) (hA : A[i]? = some (.u8 tyU8 b))
    (hcur : cur < 1000000) :
    match Gen.indexStep t cur b with
    | .ok (t', cur') => ∃ h' x', rangeBody (ctx m L (d + 3)) L ⟨a0, 0, n - 2, 4⟩ (name! "_") (name! "b") ensureLoop i (envE p a0 n r pen fin cur) h =
        .ok (.next (envE p a0 n r pen fin cur'), h') ∧ TreeAt h' p x' t' ∧ Moves p h x h' x'
    | .error e => rangeBody (ctx m L (d + 3)) L ⟨a0, 0, n - 2, 4⟩ (name! "_") (name! "b") ensureLoop i (envE p a0 n r pen fin cur) h =
        .error (.panic e) := by
  have w : ∀ i : Int, 0 ≤ i → i < 2147483648 → wrap m.W i = i := fun i => wrap_small m.W hW i
  have hob := load_some ht.obj
  have hl := loadElem_some ha0 hA
  have hb : b.toNat &&& 63 ≤ 63 := Nat.and_le_right
  have w1 : wrap m.W ((cur : Int) * 64) = ((64 * cur : Nat) : Int) := by rw [w _ (by omega) (by omega)]; omega
  have w2 : wrap m.W (64 * (cur : Int) + ((b.toNat &&& 63 : Nat) : Int)) = ((64 * cur + (b.toNat &&& 63) : Nat) : Int) := by
    rw [w _ (by omega) (by omega)]; omega
  have e1 := at_eq cur b
  generalize hk : 64 * cur + (b.toNat &&& 63) = k at *
  rw [rangeBody_apply]
  rcases hv : t.indices[k]? with _ | v
  · have hk' : ¬ k < t.indices.length := by rw [List.getElem?_eq_none_iff] at hv; omega
    have hpos := @position_bad h ⟨x.aI, 0, t.indices.length, x.capI⟩ k hk'
    rw [indexStep_none e1 hv]
    simp [mem_exec, ensureLoop, fn_ensureProps, stmtAt, bodyOf, rangeVars, hl, envE, hob, treeFields, w1, w2, hpos]
  · have hk' : k < t.indices.length := lt_of_some hv
    have hpos := @position_ok h ⟨x.aI, 0, t.indices.length, x.capI⟩ k hk'
    have hel := ht.getI hv
    have w0 := w 0 (by omega) (by omega)
    by_cases h0 : v = 0
    · subst h0
      rw [indexStep_zero e1 hv]
      obtain ⟨h1, a1, cap1, tl1, happ, hp1, ht1, hm⟩ := ht.growI m
      have hrs := @readSlice_some h ⟨0, 0, 64, 64⟩ _ ht.zero0
      have hob1 := load_some hp1
      have hob2 : ∀ o, load p (h1.set p o) = .ok (o, h1.set p o) := fun o => load_some (set_self hp1)
      have hv2 : (t.indices ++ List.replicate 64 0)[k]? = some 0 := by rw [List.getElem?_append_left hk', hv]
      have hel2 := ht1.getI hv2
      have hst2 := fun v => storeElem_some (v := v) ht1.inds (i := k) (by simp; omega)
      have hpos2 := fun h => @position_ok h ⟨a1, 0, t.indices.length + 64, cap1⟩ k (by show k < t.indices.length + 64; omega)
      have hshr : t.indices.length >>> 6 = t.indices.length / 64 := by rw [Nat.shiftRight_eq_div_pow]
      have hcv : UInt16.ofNat (((t.indices.length : Int) / 64).emod 65536).toNat = UInt16.ofNat (t.indices.length / 64) := u16_conv (t.indices.length / 64)
      have hset := ht1.setI (k := k) (by simp; omega) (UInt16.ofNat (t.indices.length / 64))
      rw [hshr]
      refine ⟨_, _, ?_, hset, (hm _).trans (Moves.setI ht1 _)⟩
      simp only [treeFields, List.length_append, List.length_replicate] at hel2 hst2
      simp [mem_exec, ensureLoop, fn_ensureProps, stmtAt, bodyOf, rangeVars, hl, envE, hob, treeFields, w1, w2, hpos, hel, w0, hrs, happ, hob1, hob2, hpos2, hel2, hst2, hcv, -List.reduceReplicate]
    · have h0' : ¬ v.toNat = 0 := by intro h; exact h0 (by rw [← UInt16.toNat_inj]; exact h)
      rw [indexStep_some e1 hv h0]
      refine ⟨h, x, ?_, ht, Moves.refl p h x⟩
      simp [mem_exec, ensureLoop, fn_ensureProps, stmtAt, bodyOf, rangeVars, hl, envE, hob, treeFields, w1, w2, hpos, hel, h0, h0', w0]

theorem indexStep_bound {t t' : Gen.Tree} {cur cur' : Nat} {b : UInt8} (h : Gen.indexStep t cur b = .ok (t', cur'))
    (hl : t.indices.length < 1000000) : cur' < 1000000 ∧ t'.indices.length ≤ t.indices.length + 64 ∧ t'.rawProps = t.rawProps := by
  rcases hv : t.indices[cur <<< 6 + (b &&& 63).toNat]? with _ | v
  · rw [indexStep_none rfl hv] at h; cases h
  · by_cases h0 : v = 0
    · subst h0
      rw [indexStep_zero rfl hv] at h
      cases h
      simp [Nat.shiftRight_eq_div_pow]
      omega
    · rw [indexStep_some rfl hv h0] at h
      cases h
      have := v.toNat_lt
      exact ⟨by omega, by omega, rfl⟩

theorem loop_spec (m : Machine) (hW : 32 ≤ m.W) (L d : Nat) (p a0 n : Nat) (r : Int32) (pen fin : UInt8) (A : List Val) (bs : List UInt8) :
    ∀ (i cur : Nat) (h : Heap) (x : Loc) (t : Gen.Tree), TreeAt h p x t → h[a0]? = some (.arr A) → a0 ≠ x.aP → a0 ≠ x.aI →
    (∀ j b, bs[j]? = some b → A[i + j]? = some (.u8 tyU8 b)) → cur < 1000000 → t.indices.length + 64 * bs.length < 1000000 →
    match Gen.indexLoop t cur bs with
    | .ok (t', cur') => ∃ h' x', rangeN (rangeBody (ctx m L (d + 3)) L ⟨a0, 0, n - 2, 4⟩ (name! "_") (name! "b") ensureLoop) bs.length i
          (envE p a0 n r pen fin cur) h = .ok (.next (envE p a0 n r pen fin cur'), h') ∧ TreeAt h' p x' t' ∧ Moves p h x h' x' ∧
        cur' < 1000000 ∧ t'.indices.length ≤ t.indices.length + 64 * bs.length ∧ t'.rawProps = t.rawProps
    | .error e => rangeN (rangeBody (ctx m L (d + 3)) L ⟨a0, 0, n - 2, 4⟩ (name! "_") (name! "b") ensureLoop) bs.length i
          (envE p a0 n r pen fin cur) h = .error (.panic e) := by
  induction bs with
  | nil =>
    intro i cur h x t ht _ _ _ _ hc _
    exact ⟨h, x, rfl, ht, Moves.refl _ _ _, hc, Nat.le_refl _, rfl⟩
  | cons b bs ih =>
    intro i cur h x t ht ha0 hP hI hA hc hl
    simp only [List.length_cons] at hl
    have hp : a0 ≠ p := by intro hh; rw [hh, ht.obj] at ha0; cases ha0
    have hs := step_spec m hW L d p a0 n r pen fin cur h x t ht b i A ha0 (hA 0 b rfl) hc
    rw [Gen.indexLoop]
    simp only [List.length_cons]
    rw [rangeN_succ]
    rcases hst : Gen.indexStep t cur b with e | ⟨t1, cur1⟩
    · rw [hst] at hs
      simp only at hs
      rw [hs]
      rfl
    · rw [hst] at hs
      obtain ⟨h1, x1, hs, ht1, hm⟩ := hs
      have hb := indexStep_bound hst (by omega)
      have ha01 := hm.keep a0 (lt_of_some ha0) hp hP hI
      have l0 := lt_of_some ha0
      have hxP := hm.aP
      have hxI := hm.aI
      have := ih (i + 1) cur1 h1 x1 t1 ht1 (ha01.trans ha0) (by omega) (by omega)
        (by intro j b' hj; rw [show i + 1 + j = i + (j + 1) by omega]; exact hA (j + 1) b' hj) hb.1 (by omega)
      rw [hs]
      simp only [bindR_ok, rangeNext]
      show match Gen.indexLoop t1 cur1 bs with
        | .ok (t', cur') => _
        | .error e => _
      rcases hil : Gen.indexLoop t1 cur1 bs with e | ⟨t2, cur2⟩
      · rw [hil] at this
        exact this
      · rw [hil] at this
        obtain ⟨h2, x2, hr, ht2, hm2, hc2, hl2, hp2⟩ := this
        exact ⟨h2, x2, hr, ht2, hm.trans hm2, hc2, by omega, by rw [hp2, hb.2.2]⟩

theorem propStep_none {t : Gen.Tree} {cur k : Nat} {b : UInt8} (e : cur <<< 6 + (b &&& 63).toNat = k) (hv : t.indices[k]? = none) :
    Gen.propStep t cur b = .error .indexOutOfRange := by
  unfold Gen.propStep
  simp only [e, goIndex, hv]; rfl

theorem propStep_zero {t : Gen.Tree} {cur k : Nat} {b : UInt8} (e : cur <<< 6 + (b &&& 63).toNat = k) (hv : t.indices[k]? = some 0) :
    Gen.propStep t cur b = .ok (⟨t.rawProps ++ List.replicate 64 0, t.indices.set k (UInt16.ofNat (t.rawProps.length >>> 6))⟩,
      t.rawProps.length >>> 6) := by
  unfold Gen.propStep
  have := lt_of_some hv
  simp only [e, goIndex, hv, Gen.goSet, bind, Except.bind, if_true]
  rw [if_pos this]

theorem propStep_some {t : Gen.Tree} {cur k : Nat} {b : UInt8} (e : cur <<< 6 + (b &&& 63).toNat = k) {v : UInt16} (hv : t.indices[k]? = some v)
    (h0 : v ≠ 0) : Gen.propStep t cur b = .ok (t, v.toNat) := by
  unfold Gen.propStep
  simp only [e, goIndex, hv, bind, Except.bind, if_neg h0]

/-- The block in `ensureProps` that finds the property block. -/
def ensureBlock : Stmts := bodyOf (stmtAt 10 fn_ensureProps.body)

theorem prop_spec (m : Machine) (hW : 32 ≤ m.W) (L d : Nat) (p a0 n : Nat) (r : Int32) (b fin : UInt8) (cur : Nat) (h : Heap) (x : Loc) (t : Gen.Tree)
    (ht : TreeAt h p x t) (hcur : cur < 1000000) :
    match Gen.propStep t cur b with
    | .ok (t', i) => ∃ h' x', execs (ctx m L (d + 3)) L ensureBlock 9 ((name! "propBlockIndex", .int tyInt 0) :: envE p a0 n r b fin cur) h =
        .ok (.next ((name! "propBlockIndexIdx", .int tyInt (cur <<< 6 + (b &&& 63).toNat : Nat)) :: (name! "propBlockIndex", .int tyInt i) :: envE p a0 n r b fin cur), h') ∧ TreeAt h' p x' t' ∧ Moves p h x h' x'
    | .error e => execs (ctx m L (d + 3)) L ensureBlock 9 ((name! "propBlockIndex", .int tyInt 0) :: envE p a0 n r b fin cur) h =
        .error (.panic e) := by
  have w : ∀ i : Int, 0 ≤ i → i < 2147483648 → wrap m.W i = i := fun i => wrap_small m.W hW i
  have hob := load_some ht.obj
  have hb : b.toNat &&& 63 ≤ 63 := Nat.and_le_right
  have w1 : wrap m.W ((cur : Int) * 64) = ((64 * cur : Nat) : Int) := by rw [w _ (by omega) (by omega)]; omega
  have w2 : wrap m.W (64 * (cur : Int) + ((b.toNat &&& 63 : Nat) : Int)) = ((64 * cur + (b.toNat &&& 63) : Nat) : Int) := by
    rw [w _ (by omega) (by omega)]; omega
  have e1 := at_eq cur b
  generalize hk : 64 * cur + (b.toNat &&& 63) = k at *
  rw [e1]
  rcases hv : t.indices[k]? with _ | v
  · have hk' : ¬ k < t.indices.length := by rw [List.getElem?_eq_none_iff] at hv; omega
    have hpos := @position_bad h ⟨x.aI, 0, t.indices.length, x.capI⟩ k hk'
    rw [propStep_none e1 hv]
    simp [mem_exec, ensureBlock, fn_ensureProps, stmtAt, bodyOf, envE, hob, treeFields, w1, w2, hpos]
  · have hk' : k < t.indices.length := lt_of_some hv
    have hpos := fun h => @position_ok h ⟨x.aI, 0, t.indices.length, x.capI⟩ k hk'
    have hel := ht.getI hv
    have w0 := w 0 (by omega) (by omega)
    by_cases h0 : v = 0
    · subst h0
      rw [propStep_zero e1 hv]
      obtain ⟨h1, a1, cap1, tl1, happ, hp1, ht1, hm⟩ := ht.growP m
      have hrs := @readSlice_some h ⟨1, 0, 64, 64⟩ _ ht.zero1
      have hob1 := load_some hp1
      have hob2 : ∀ o, load p (h1.set p o) = .ok (o, h1.set p o) := fun o => load_some (set_self hp1)
      have hel2 := ht1.getI (k := k) hv
      have hst2 := fun v => storeElem_some (v := v) ht1.inds (i := k) (by simp; omega)
      have hshr : t.rawProps.length >>> 6 = t.rawProps.length / 64 := by rw [Nat.shiftRight_eq_div_pow]
      have hcv : UInt16.ofNat (((t.rawProps.length : Int) / 64).emod 65536).toNat = UInt16.ofNat (t.rawProps.length / 64) := u16_conv (t.rawProps.length / 64)
      have hset := ht1.setI (k := k) hk' (UInt16.ofNat (t.rawProps.length / 64))
      rw [hshr]
      refine ⟨_, _, ?_, hset, (hm _).trans (Moves.setI ht1 _)⟩
      simp only [treeFields, List.length_append, List.length_replicate] at hel2 hst2
      simp [mem_exec, ensureBlock, fn_ensureProps, stmtAt, bodyOf, envE, hob, treeFields, w1, w2, hpos, hel, w0, hrs, happ, hob1, hob2, hel2, hst2, hcv, -List.reduceReplicate]
    · have h0' : ¬ v.toNat = 0 := by intro h; exact h0 (by rw [← UInt16.toNat_inj]; exact h)
      rw [propStep_some e1 hv h0]
      refine ⟨h, x, ?_, ht, Moves.refl p h x⟩
      simp [mem_exec, ensureBlock, fn_ensureProps, stmtAt, bodyOf, envE, hob, treeFields, w1, w2, hpos, hel, h0, h0', w0]
      done


theorem TreeAt.push {h p x t} (ht : TreeAt h p x t) (o : Obj) : TreeAt (h ++ [o]) p x t where
  obj := by rw [push_old (lt_of_some ht.obj)]; exact ht.obj
  props := by rw [push_old (lt_of_some ht.props)]; exact ht.props
  inds := by rw [push_old (lt_of_some ht.inds)]; exact ht.inds
  zero0 := by rw [push_old (lt_of_some ht.zero0)]; exact ht.zero0
  zero1 := by rw [push_old (lt_of_some ht.zero1)]; exact ht.zero1
  geP := ht.geP
  geI := ht.geI
  ne := ht.ne
  capP := ht.capP
  capI := ht.capI

theorem Moves.push (p : Nat) (h : Heap) (x : Loc) (o : Obj) : Moves p h x (h ++ [o]) x where
  len := by simp
  keep := fun _ ha _ _ _ => push_old ha
  aP := .inl rfl
  aI := .inl rfl

theorem set_push (h : Heap) (o o' : Obj) : (h ++ [o]).set h.length o' = h ++ [o'] := by
  rw [List.set_append_right _ _ (Nat.le_refl _), Nat.sub_self]; rfl

theorem EncodeRune_cases (r : Int32) : (∃ a, EncodeRune r = [a]) ∨ (∃ a b, EncodeRune r = [a, b]) ∨ (∃ a b c, EncodeRune r = [a, b, c]) ∨
    ∃ a b c d, EncodeRune r = [a, b, c, d] := by
  unfold EncodeRune
  simp only
  split
  · exact .inl ⟨_, rfl⟩
  · split
    · exact .inr (.inl ⟨_, _, rfl⟩)
    · split
      · exact .inr (.inr (.inl ⟨_, _, _, rfl⟩))
      · split
        · exact .inr (.inr (.inl ⟨_, _, _, rfl⟩))
        · exact .inr (.inr (.inr ⟨_, _, _, _, rfl⟩))

def dropS : Nat → Stmts → Stmts
  | 0, ss => ss
  | _ + 1, .nil => .nil
  | n + 1, .cons _ ss => dropS n ss

theorem propStep_bound {t t' : Gen.Tree} {cur i : Nat} {b : UInt8} (h : Gen.propStep t cur b = .ok (t', i))
    (hl : t.rawProps.length < 2000000) : i < 70000 := by
  rcases hv : t.indices[cur <<< 6 + (b &&& 63).toNat]? with _ | v
  · rw [propStep_none rfl hv] at h; cases h
  · by_cases h0 : v = 0
    · subst h0
      rw [propStep_zero rfl hv] at h
      cases h
      simp [Nat.shiftRight_eq_div_pow]
      omega
    · rw [propStep_some rfl hv h0] at h
      cases h
      have := v.toNat_lt
      omega

theorem tail_spec (m : Machine) (hW : 32 ≤ m.W) (L d : Nat) (p a0 n : Nat) (r : Int32) (b fin : UInt8) (cur : Nat) (h : Heap) (x : Loc) (t : Gen.Tree)
    (ht : TreeAt h p x t) (hcur : cur < 1000000) (hP : t.rawProps.length < 2000000) :
    match (Gen.propStep t cur b >>= fun q => Except.ok (q.1, q.2 <<< 6 + (fin &&& 63).toNat) : Go _) with
    | .ok (t', i) => ∃ h' x', bindR (execs (ctx m L (d + 3)) L (dropS 9 fn_ensureProps.body) 0 (envE p a0 n r b fin cur) h) (returned (ctx m L (d + 3)) fn_ensureProps.results) =
        (if i < t'.rawProps.length then .ok ([.ptrElem tB x'.aP i], h') else .error (.panic .indexOutOfRange)) ∧ TreeAt h' p x' t' ∧ Moves p h x h' x'
    | .error e => bindR (execs (ctx m L (d + 3)) L (dropS 9 fn_ensureProps.body) 0 (envE p a0 n r b fin cur) h) (returned (ctx m L (d + 3)) fn_ensureProps.results) = .error (.panic e) := by
  have w : ∀ i : Int, 0 ≤ i → i < 2147483648 → wrap m.W i = i := fun i => wrap_small m.W hW i
  have e : dropS 9 fn_ensureProps.body = .cons (stmtAt 9 fn_ensureProps.body) (.cons (.block ensureBlock) (.cons (stmtAt 11 fn_ensureProps.body) .nil)) := rfl
  have e9 : exec (ctx m L (d + 3)) L (stmtAt 9 fn_ensureProps.body) 0 (envE p a0 n r b fin cur) h = .ok (.next ((name! "propBlockIndex", .int tyInt 0) :: envE p a0 n r b fin cur), h) := by
    simp [mem_exec, fn_ensureProps, stmtAt]
  rw [e, execs_cons, e9]
  simp only [bindR_ok, andThen]
  rw [execs_cons, exec_block]
  have hs := prop_spec m hW L d p a0 n r b fin cur h x t ht hcur
  rcases hps : Gen.propStep t cur b with er | ⟨t1, i⟩
  · rw [hps] at hs
    simp only at hs
    show bindR (bindR (bindR (execs (ctx m L (d + 3)) L ensureBlock 9 _ _) _) _) _ = _
    rw [hs]
    rfl
  · rw [hps] at hs
    obtain ⟨h1, x1, hs, ht1, hm⟩ := hs
    refine ⟨h1, x1, ?_, ht1, hm⟩
    show bindR (bindR (bindR (execs (ctx m L (d + 3)) L ensureBlock 9 _ _) _) _) _ = _
    rw [hs]
    have hi := propStep_bound hps hP
    have hob := load_some ht1.obj
    have hb : fin.toNat &&& 63 ≤ 63 := Nat.and_le_right
    have w1 : wrap m.W ((i : Int) * 64) = ((64 * i : Nat) : Int) := by rw [w _ (by omega) (by omega)]; omega
    have w2 : wrap m.W (64 * (i : Int) + ((fin.toNat &&& 63 : Nat) : Int)) = ((64 * i + (fin.toNat &&& 63) : Nat) : Int) := by
      rw [w _ (by omega) (by omega)]; omega
    have e1 := at_eq i fin
    simp only
    rw [e1]
    generalize hk : 64 * i + (fin.toNat &&& 63) = k at *
    by_cases hlt : k < t1.rawProps.length
    · have hpos := fun h => @position_ok h ⟨x1.aP, 0, t1.rawProps.length, x1.capP⟩ k hlt
      simp [mem_exec, stmtAt, fn_ensureProps, leave, envE, hob, treeFields, w1, w2, hpos, hlt]
    · have hpos := fun h => @position_bad h ⟨x1.aP, 0, t1.rawProps.length, x1.capP⟩ k hlt
      simp [mem_exec, stmtAt, fn_ensureProps, leave, envE, hob, treeFields, w1, w2, hpos, hlt]

theorem mid_spec (m : Machine) (hW : 32 ≤ m.W) (L d : Nat) (p n : Nat) (r : Int32) (b fin : UInt8) (bs : List UInt8) (A : List Val) (h : Heap) (x : Loc) (t : Gen.Tree)
    (ht : TreeAt h p x t) (hA : ∀ (j : Nat) (b : UInt8), bs[j]? = some b → A[j]? = some (Val.u8 tyU8 b)) (hbs : bs.length ≤ 2)
    (hI : t.indices.length < 900000) (hP : t.rawProps.length < 2000000) :
    match (Gen.indexLoop t 0 bs >>= fun q => Gen.propStep q.1 q.2 b >>= fun q => .ok (q.1, q.2 <<< 6 + (fin &&& 63).toNat) : Go _) with
    | .ok (t', i) => ∃ h' x', bindR (bindR (rangeN (rangeBody (ctx m L (d + 3)) L ⟨h.length, 0, n - 2, 4⟩ (name! "_") (name! "b") ensureLoop) bs.length 0
          (envE p h.length n r b fin 0) (h ++ [.arr A])) (andThen (ctx m L (d + 3)) L 0 (dropS 9 fn_ensureProps.body))) (returned (ctx m L (d + 3)) fn_ensureProps.results) =
        (if i < t'.rawProps.length then .ok ([.ptrElem tB x'.aP i], h') else .error (.panic .indexOutOfRange)) ∧ TreeAt h' p x' t' ∧ Moves p h x h' x'
    | .error e => bindR (bindR (rangeN (rangeBody (ctx m L (d + 3)) L ⟨h.length, 0, n - 2, 4⟩ (name! "_") (name! "b") ensureLoop) bs.length 0
          (envE p h.length n r b fin 0) (h ++ [.arr A])) (andThen (ctx m L (d + 3)) L 0 (dropS 9 fn_ensureProps.body))) (returned (ctx m L (d + 3)) fn_ensureProps.results) = .error (.panic e) := by
  have lP := lt_of_some ht.props
  have lI := lt_of_some ht.inds
  have hs := loop_spec m hW L d p h.length n r b fin A bs 0 0 _ x t (ht.push _) (push_new (h := h) (o := .arr A)) (by omega) (by omega)
    (by intro j b hj; rw [Nat.zero_add]; exact hA j b hj) (by omega) (by omega)
  rcases hil : Gen.indexLoop t 0 bs with er | ⟨t1, cur⟩
  · rw [hil] at hs
    simp only at hs
    rw [hs]
    rfl
  · rw [hil] at hs
    obtain ⟨h1, x1, hs, ht1, hm, hc, hl, hp⟩ := hs
    rw [hs]
    simp only [bindR_ok, andThen]
    have ht2 := tail_spec m hW L d p h.length n r b fin cur h1 x1 t1 ht1 hc (by rw [hp]; exact hP)
    show match (Gen.propStep t1 cur b >>= fun q => .ok (q.1, q.2 <<< 6 + (fin &&& 63).toNat) : Go _) with
      | .ok (t', i) => _
      | .error e => _
    rcases hps : (Gen.propStep t1 cur b >>= fun q => .ok (q.1, q.2 <<< 6 + (fin &&& 63).toNat) : Go _) with er | ⟨t2, i⟩
    · rw [hps] at ht2
      exact ht2
    · rw [hps] at ht2
      obtain ⟨h2, x2, hs2, ht2, hm2⟩ := ht2
      exact ⟨h2, x2, hs2, ht2, ((Moves.push p h x _).trans hm).trans hm2⟩

theorem ensure_spec (m : Machine) (hW : 32 ≤ m.W) (L d : Nat) (p : Nat) (r : Int32) (h : Heap) (x : Loc) (t : Gen.Tree)
    (ht : TreeAt h p x t) (hI : t.indices.length < 900000) (hP : t.rawProps.length < 2000000) :
    match Gen.ensureProps t r with
    | .ok (t', i) => ∃ h' x', R m L (d + 4) (.method (.ptr tTree p) (name! "ensureProps") [.rune tyRune r]) h =
        (if i < t'.rawProps.length then .ok ([.ptrElem tB x'.aP i], h') else .error (.panic .indexOutOfRange)) ∧ TreeAt h' p x' t' ∧ Moves p h x h' x'
    | .error e => R m L (d + 4) (.method (.ptr tTree p) (name! "ensureProps") [.rune tyRune r]) h = .error (.panic e) := by
  have w : ∀ i : Int, 0 ≤ i → i < 2147483648 → wrap m.W i = i := fun i => wrap_small m.W hW i
  have w0 := w 0 (by omega) (by omega)
  have w1 := w 1 (by omega) (by omega)
  have w2 := w 2 (by omega) (by omega)
  have w3 := w 3 (by omega) (by omega)
  have w4 := w 4 (by omega) (by omega)
  have hob := load_some ht.obj
  rw [R_ensureProps]
  have hl := load_some (@push_new h (.arr [.u8 tyU8 0, .u8 tyU8 0, .u8 tyU8 0, .u8 tyU8 0]))
  have hob1 := fun o => load_some (ht.push o).obj
  rcases EncodeRune_cases r with ⟨a, hr⟩ | ⟨a, b, hr⟩ | ⟨a, b, c, hr⟩ | ⟨a, b, c, e, hr⟩
  · have hm : Gen.ensureProps t r = .ok (t, a.toNat) := by
      unfold Gen.ensureProps
      simp [hr, goIndex, bind, Except.bind]
    rw [hm]
    refine ⟨h ++ [.arr [.u8 tyU8 a, .u8 tyU8 0, .u8 tyU8 0, .u8 tyU8 0]], x, ?_, ht.push _, Moves.push _ _ _ _⟩
    have hp0 : ∀ h', position (some ⟨h.length, 0, 1, 4⟩) 0 h' = .ok ((h.length, 0), h') := fun h' => position_ok (k := 0) h' (by show 0 < 1; omega)
    have hle := @loadElem_some (h ++ [.arr [.u8 tyU8 a, .u8 tyU8 0, .u8 tyU8 0, .u8 tyU8 0]]) h.length 0 _ _ push_new rfl
    have ha := a.toNat_lt
    have wa := w a.toNat (by omega) (by omega)
    by_cases hlt : a.toNat < t.rawProps.length
    · have hp1 := fun h' => @position_ok h' ⟨x.aP, 0, t.rawProps.length, x.capP⟩ a.toNat hlt
      simp [mem_exec, fn_ensureProps, makeOf, hr, writeBytes, hl, set_push, w1, hob1, treeFields, hp0, hle, hp1, hlt, wa]
    · have hp1 := fun h' => @position_bad h' ⟨x.aP, 0, t.rawProps.length, x.capP⟩ a.toNat hlt
      simp [mem_exec, fn_ensureProps, makeOf, hr, writeBytes, hl, set_push, w1, hob1, treeFields, hp0, hle, hp1, hlt, wa]
  · have hm : Gen.ensureProps t r = (Gen.indexLoop t 0 [] >>= fun q => Gen.propStep q.1 q.2 a >>= fun q => .ok (q.1, q.2 <<< 6 + (b &&& 63).toNat)) := by
      unfold Gen.ensureProps
      simp [hr, goIndex, goSliceTo, bind, Except.bind]
    have hp0 : ∀ h', position (some ⟨h.length, 0, 2, 4⟩) 0 h' = .ok ((h.length, 0), h') := fun h' => position_ok (k := 0) h' (by show 0 < 2; omega)
    have hp1 : ∀ h', position (some ⟨h.length, 0, 2, 4⟩) 1 h' = .ok ((h.length, 1), h') := fun h' => position_ok (k := 1) h' (by show 1 < 2; omega)
    have hle0 := @loadElem_some (h ++ [.arr [.u8 tyU8 a, .u8 tyU8 b, .u8 tyU8 0, .u8 tyU8 0]]) h.length 0 _ _ push_new rfl
    have hle1 := @loadElem_some (h ++ [.arr [.u8 tyU8 a, .u8 tyU8 b, .u8 tyU8 0, .u8 tyU8 0]]) h.length 1 _ _ push_new rfl
    have hmid := mid_spec m hW L d p 2 r a b [] [.u8 tyU8 a, .u8 tyU8 b, .u8 tyU8 0, .u8 tyU8 0] h x t ht
      (by intro j b hj; rcases j with _ | _ | j <;> simp_all) (by simp) hI hP
    simp only [ensureLoop, fn_ensureProps, stmtAt, bodyOf, envE, dropS] at hmid
    rw [hm]
    simp [mem_exec, fn_ensureProps, makeOf, hr, writeBytes, hl, set_push, w0, w1, w2, w3, w4, hob1, treeFields, hp0, hp1, hle0, hle1, -bind_pure_comp]
    exact hmid
  · have hm : Gen.ensureProps t r = (Gen.indexLoop t 0 [a] >>= fun q => Gen.propStep q.1 q.2 b >>= fun q => .ok (q.1, q.2 <<< 6 + (c &&& 63).toNat)) := by
      unfold Gen.ensureProps
      simp [hr, goIndex, goSliceTo, bind, Except.bind]
    have hp0 : ∀ h', position (some ⟨h.length, 0, 3, 4⟩) 1 h' = .ok ((h.length, 1), h') := fun h' => position_ok (k := 1) h' (by show 1 < 3; omega)
    have hp1 : ∀ h', position (some ⟨h.length, 0, 3, 4⟩) 2 h' = .ok ((h.length, 2), h') := fun h' => position_ok (k := 2) h' (by show 2 < 3; omega)
    have hle0 := @loadElem_some (h ++ [.arr [.u8 tyU8 a, .u8 tyU8 b, .u8 tyU8 c, .u8 tyU8 0]]) h.length 1 _ _ push_new rfl
    have hle1 := @loadElem_some (h ++ [.arr [.u8 tyU8 a, .u8 tyU8 b, .u8 tyU8 c, .u8 tyU8 0]]) h.length 2 _ _ push_new rfl
    have hmid := mid_spec m hW L d p 3 r b c [a] [.u8 tyU8 a, .u8 tyU8 b, .u8 tyU8 c, .u8 tyU8 0] h x t ht
      (by intro j b hj; rcases j with _ | _ | j <;> simp_all) (by simp) hI hP
    simp only [ensureLoop, fn_ensureProps, stmtAt, bodyOf, envE, dropS] at hmid
    rw [hm]
    simp [mem_exec, fn_ensureProps, makeOf, hr, writeBytes, hl, set_push, w0, w1, w2, w3, w4, hob1, treeFields, hp0, hp1, hle0, hle1, -bind_pure_comp]
    exact hmid
  · have hm : Gen.ensureProps t r = (Gen.indexLoop t 0 [a, b] >>= fun q => Gen.propStep q.1 q.2 c >>= fun q => .ok (q.1, q.2 <<< 6 + (e &&& 63).toNat)) := by
      unfold Gen.ensureProps
      simp [hr, goIndex, goSliceTo, bind, Except.bind]
    have hp0 : ∀ h', position (some ⟨h.length, 0, 4, 4⟩) 2 h' = .ok ((h.length, 2), h') := fun h' => position_ok (k := 2) h' (by show 2 < 4; omega)
    have hp1 : ∀ h', position (some ⟨h.length, 0, 4, 4⟩) 3 h' = .ok ((h.length, 3), h') := fun h' => position_ok (k := 3) h' (by show 3 < 4; omega)
    have hle0 := @loadElem_some (h ++ [.arr [.u8 tyU8 a, .u8 tyU8 b, .u8 tyU8 c, .u8 tyU8 e]]) h.length 2 _ _ push_new rfl
    have hle1 := @loadElem_some (h ++ [.arr [.u8 tyU8 a, .u8 tyU8 b, .u8 tyU8 c, .u8 tyU8 e]]) h.length 3 _ _ push_new rfl
    have hmid := mid_spec m hW L d p 4 r c e [a, b] [.u8 tyU8 a, .u8 tyU8 b, .u8 tyU8 c, .u8 tyU8 e] h x t ht
      (by intro j b hj; rcases j with _ | _ | j <;> simp_all) (by simp) hI hP
    simp only [ensureLoop, fn_ensureProps, stmtAt, bodyOf, envE, dropS] at hmid
    rw [hm]
    simp [mem_exec, fn_ensureProps, makeOf, hr, writeBytes, hl, set_push, w0, w1, w2, w3, w4, hob1, treeFields, hp0, hp1, hle0, hle1, -bind_pure_comp]
    exact hmid


end Textseg.GoMem
