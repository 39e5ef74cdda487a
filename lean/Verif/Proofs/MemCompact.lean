import Verif.Proofs.MemKeys
/-!
# The code of `buildCompactedBlocks` does what the model says
-/

namespace Textseg.GoMem
open Textseg.GoLang (TyId tyInt tyU8 Halt importName wrap)
set_option linter.unusedSimpArgs false

/-- Where the result of `Compact` is while it is being built. -/
structure CLoc where
  bI : Nat
  capI : Nat
  tlI : List Val
  bP : Nat
  capP : Nat
  tlP : List Val
  r0 : Nat
  mP : Nat
  mI : Nat

/-- The address of a map. -/
def CLoc.addr (y : CLoc) : Gen.Which → Nat
  | .propMap => y.mP
  | .indexMap => y.mI

/-- The fields of the variable `ret` of `Compact`. -/
def retFields (y : CLoc) (st : Gen.CState) : List (Nat × Val) :=
  [(name! "Indices", .slice noName tI (some ⟨y.bI, 0, st.indices.length, y.capI⟩)),
    (name! "Properties", .slice noName tB (some ⟨y.bP, 0, st.props.length, y.capP⟩))]

/-- The contents of a map. -/
def mapVals (m : Gen.BlockMap) : List (GoString × Val) := m.map fun kv => (kv.1, .u16 tyU16 kv.2)

/-- The state of `Compact` is in the memory: `ret` is at address `q`. -/
structure CRep (h : Heap) (q : Nat) (x : Loc) (y : CLoc) (st : Gen.CState) : Prop where
  ret : h[q]? = some (.struct tRaw (retFields y st))
  inds : h[y.bI]? = some (.arr (st.indices.map (.u16 tyU16) ++ y.tlI))
  props : h[y.bP]? = some (.arr (st.props.map (.u8 tyU8) ++ y.tlP))
  mapP : h[y.mP]? = some (.map (mapVals st.propMap))
  mapI : h[y.mI]? = some (.map (mapVals st.indexMap))
  neM : y.mP ≠ y.mI
  neIP : y.bI ≠ y.bP
  neI : y.bI ≠ x.aI ∧ y.bI ≠ x.aP ∧ 2 ≤ y.bI
  neP : y.bP ≠ x.aI ∧ y.bP ≠ x.aP ∧ 2 ≤ y.bP
  capI : st.indices.length ≤ y.capI
  capP : st.props.length ≤ y.capP
  lenI : 64 ≤ st.indices.length
  lenR : st.root.length = 64
  shared : st.shared = true → y.r0 = y.bI ∧ y.capI = st.cap
  unshared : st.shared = false → y.r0 ≠ y.bI ∧ y.r0 ≠ y.bP ∧ y.r0 ≠ x.aI ∧ y.r0 ≠ x.aP ∧ 2 ≤ y.r0 ∧
    ∃ (T : List UInt16) (tl : List Val), 64 ≤ T.length ∧ h[y.r0]? = some (.arr (T.map (.u16 tyU16) ++ tl))

/-- What changes while the result is being built. -/
structure Built (h : Heap) (q : Nat) (y : CLoc) (h' : Heap) (y' : CLoc) : Prop where
  len : h.length ≤ h'.length
  keep : ∀ a, a < h.length → a ≠ q → a ≠ y.bI → a ≠ y.bP → a ≠ y.mP → a ≠ y.mI → h'[a]? = h[a]?
  bI : y'.bI = y.bI ∨ h.length ≤ y'.bI
  bP : y'.bP = y.bP ∨ h.length ≤ y'.bP
  r0 : y'.r0 = y.r0
  mP : y'.mP = y.mP
  mI : y'.mI = y.mI

theorem Built.refl (h : Heap) (q : Nat) (y : CLoc) : Built h q y h y :=
  ⟨Nat.le_refl _, fun _ _ _ _ _ _ _ => rfl, .inl rfl, .inl rfl, rfl, rfl, rfl⟩

theorem Built.trans {q : Nat} {h h' h'' : Heap} {y y' y'' : CLoc} (a : Built h q y h' y') (b : Built h' q y' h'' y'') : Built h q y h'' y'' where
  len := Nat.le_trans a.len b.len
  keep := by
    intro c hc h1 h2 h3 h4 h5
    have := a.bI
    have := a.bP
    have := a.len
    have := a.mP
    have := a.mI
    rw [b.keep c (by omega) h1 (by omega) (by omega) (by omega) (by omega), a.keep c hc h1 h2 h3 h4 h5]
  bI := by have := a.bI; have := b.bI; have := a.len; omega
  bP := by have := a.bP; have := b.bP; have := a.len; omega
  r0 := b.r0.trans a.r0
  mP := b.mP.trans a.mP
  mI := b.mI.trans a.mI

theorem Built.addr {q : Nat} {h h' : Heap} {y y' : CLoc} (a : Built h q y h' y') (w : Gen.Which) : y'.addr w = y.addr w := by
  cases w
  · exact a.mP
  · exact a.mI

theorem Built.push (h : Heap) (q : Nat) (y : CLoc) (o : Obj) : Built h q y (h ++ [o]) y :=
  ⟨by simp, fun _ ha _ _ _ _ _ => push_old ha, .inl rfl, .inl rfl, rfl, rfl, rfl⟩

theorem CRep.push {h q x y st} (c : CRep h q x y st) (o : Obj) : CRep (h ++ [o]) q x y st :=
  { c with
    ret := by rw [push_old (lt_of_some c.ret)]; exact c.ret
    inds := by rw [push_old (lt_of_some c.inds)]; exact c.inds
    props := by rw [push_old (lt_of_some c.props)]; exact c.props
    mapP := by rw [push_old (lt_of_some c.mapP)]; exact c.mapP
    mapI := by rw [push_old (lt_of_some c.mapI)]; exact c.mapI
    unshared := by
      intro hs
      obtain ⟨h1, h2, h3, h4, h5, T, tl, hT, hr⟩ := c.unshared hs
      exact ⟨h1, h2, h3, h4, h5, T, tl, hT, by rw [push_old (lt_of_some hr)]; exact hr⟩ }

theorem addr_ne {h : Heap} {a a' : Nat} {o o' : Obj} (h1 : h[a]? = some o) (h2 : h[a']? = some o') (hn : o ≠ o') : a ≠ a' := by
  intro e
  rw [e, h2] at h1
  exact hn (Option.some.inj h1).symm

/-- The tree does not change while the result is being built. -/
theorem TreeAt.built {h p x t q y st h' y'} (ht : TreeAt h p x t) (c : CRep h q x y st) (b : Built h q y h' y') : TreeAt h' p x t := by
  obtain ⟨i1, i2, i3⟩ := c.neI
  obtain ⟨p1, p2, p3⟩ := c.neP
  have arrs : ∀ {a l}, h[a]? = some (.arr l) → a ≠ y.bI → a ≠ y.bP → h'[a]? = some (.arr l) := fun ha h1 h2 => by
    rw [b.keep _ (lt_of_some ha) (addr_ne ha c.ret (by intro h; cases h)) h1 h2 (addr_ne ha c.mapP (by intro h; cases h)) (addr_ne ha c.mapI (by intro h; cases h))]
    exact ha
  refine { ht with obj := ?_, props := arrs ht.props (by omega) (by omega), inds := arrs ht.inds (by omega) (by omega), zero0 := arrs ht.zero0 (by omega) (by omega), zero1 := arrs ht.zero1 (by omega) (by omega) }
  rw [b.keep p (lt_of_some ht.obj) (addr_ne ht.obj c.ret ?_) (addr_ne ht.obj c.inds (by intro h; cases h)) (addr_ne ht.obj c.props (by intro h; cases h))
    (addr_ne ht.obj c.mapP (by intro h; cases h)) (addr_ne ht.obj c.mapI (by intro h; cases h))]
  · exact ht.obj
  · intro h
    have : tTree = tRaw := by
      injection h
    revert this
    decide

theorem mapGet_vals (m : Gen.BlockMap) (k : GoString) : mapGet (mapVals m) k = (m.get k).map (.u16 tyU16) := by
  induction m with
  | nil => rfl
  | cons kv m ih =>
    obtain ⟨k', v⟩ := kv
    simp only [mapGet, mapVals, Gen.BlockMap.get, List.map_cons, List.lookup_cons] at *
    by_cases hk : k == k'
    · simp [hk]
    · simp only [hk]
      exact ih

theorem CRep.map {h q x y st} (c : CRep h q x y st) (w : Gen.Which) : h[y.addr w]? = some (.map (mapVals (st.getMap w))) := by
  cases w
  · exact c.mapP
  · exact c.mapI

/-- `m[key] = v` -/
theorem CRep.put {h q x y st} (c : CRep h q x y st) (w : Gen.Which) (k : GoString) (v : UInt16) :
    CRep (h.set (y.addr w) (.map ((k, Val.u16 tyU16 v) :: mapVals (st.getMap w)))) q x y (st.putMap w k v) := by
  have keep : ∀ {a : Nat} {o : Obj}, h[a]? = some o → (∀ m, o ≠ Obj.map m) → (h.set (y.addr w) (.map ((k, Val.u16 tyU16 v) :: mapVals (st.getMap w))))[a]? = some o := fun ha hn => by
    rw [set_other (Ne.symm (addr_ne ha (c.map w) (hn _)))]; exact ha
  have neM := c.neM
  have un : st.shared = false → y.r0 ≠ y.bI ∧ y.r0 ≠ y.bP ∧ y.r0 ≠ x.aI ∧ y.r0 ≠ x.aP ∧ 2 ≤ y.r0 ∧
    ∃ (T : List UInt16) (tl : List Val), 64 ≤ T.length ∧ (h.set (y.addr w) (.map ((k, Val.u16 tyU16 v) :: mapVals (st.getMap w))))[y.r0]? = some (.arr (T.map (.u16 tyU16) ++ tl)) := by
    intro hs
    obtain ⟨h1, h2, h3, h4, h5, T, tl, hT, hr⟩ := c.unshared hs
    exact ⟨h1, h2, h3, h4, h5, T, tl, hT, keep hr (by intro m h; cases h)⟩
  have r := keep c.ret (by intro m h; cases h)
  have i := keep c.inds (by intro m h; cases h)
  have p := keep c.props (by intro m h; cases h)
  cases w
  · exact { c with
      ret := r, inds := i, props := p, unshared := un
      mapP := set_self c.mapP
      mapI := (set_other neM).trans c.mapI }
  · exact { c with
      ret := r, inds := i, props := p, unshared := un
      mapI := set_self c.mapI
      mapP := (set_other (Ne.symm neM)).trans c.mapP }

theorem Built.put (h : Heap) (q : Nat) (y : CLoc) (w : Gen.Which) (o : Obj) : Built h q y (h.set (y.addr w) o) y where
  len := by simp
  keep := by
    intro a _ _ _ _ h4 h5
    refine set_other ?_
    cases w
    · exact Ne.symm h4
    · exact Ne.symm h5
  bI := .inl rfl
  bP := .inl rfl
  r0 := rfl
  mP := rfl
  mI := rfl


/-- An address that is not that of the array to which is appended. -/
theorem ne_new {a a1 b n : Nat} (hor : a1 = b ∨ a1 = n) (h1 : a ≠ b) (h2 : a < n) : a ≠ a1 := by omega

/-- `ret.Properties = append(ret.Properties, block...)` -/
theorem CRep.growP (m : Machine) {h p x t q y st} (ht : TreeAt h p x t) (c : CRep h q x y st) (block : List UInt8) (hb : block ≠ []) : ∃ h1 a1 cap1 tl1,
    appendSlice m tB (some ⟨y.bP, 0, st.props.length, y.capP⟩) (block.map (.u8 tyU8)) h =
      .ok (some ⟨a1, 0, st.props.length + block.length, cap1⟩, h1) ∧
    h1[q]? = some (.struct tRaw (retFields y st)) ∧
    CRep (h1.set q (.struct tRaw (retFields { y with bP := a1, capP := cap1, tlP := tl1 } { st with props := st.props ++ block })))
      q x { y with bP := a1, capP := cap1, tlP := tl1 } { st with props := st.props ++ block } ∧
    ∀ o, Built h q y (h1.set q o) { y with bP := a1, capP := cap1, tlP := tl1 } := by
  obtain ⟨h1, a1, cap1, tl1, happ, harr, hcap, hlen1, hkeep, hor⟩ := appendSlice_spec m tB (.u8 tyU8 0) (fun _ => rfl) c.props
    (by rw [List.length_map]; exact c.capP) (xs := block.map (.u8 tyU8)) (by intro h; exact hb (List.map_eq_nil_iff.mp h))
  simp only [List.length_map] at happ harr hcap hor
  have hor : a1 = y.bP ∨ a1 = h.length := hor.imp (fun h => h.2.1) (fun h => h.2)
  have n1 := addr_ne c.ret c.inds (by intro h; cases h)
  have n3 := addr_ne c.ret c.mapP (by intro h; cases h)
  have n4 := addr_ne c.ret c.mapI (by intro h; cases h)
  have e0 : q ≠ a1 := ne_new hor (addr_ne c.ret c.props (by intro h; cases h)) (lt_of_some c.ret)
  have e1 : y.bI ≠ a1 := ne_new hor c.neIP (lt_of_some c.inds)
  have e2 : y.mP ≠ a1 := ne_new hor (addr_ne c.mapP c.props (by intro h; cases h)) (lt_of_some c.mapP)
  have e3 : y.mI ≠ a1 := ne_new hor (addr_ne c.mapI c.props (by intro h; cases h)) (lt_of_some c.mapI)
  have e4 : x.aI ≠ a1 := ne_new hor (Ne.symm c.neP.1) (lt_of_some ht.inds)
  have e5 : x.aP ≠ a1 := ne_new hor (Ne.symm c.neP.2.1) (lt_of_some ht.props)
  have e6 : 2 ≤ a1 := by
    have := c.neP.2.2
    have := lt_of_some c.props
    clear n1 n3 n4 e0 e1 e2 e3 e4 e5
    omega
  have hq1 : h1[q]? = _ := (hkeep q (lt_of_some c.ret) e0).trans c.ret
  refine ⟨h1, a1, cap1, tl1, happ, hq1, ?_, ?_⟩
  · exact {
      ret := set_self hq1
      inds := (set_other n1).trans ((hkeep _ (lt_of_some c.inds) e1).trans c.inds)
      props := by rw [set_other e0, harr]; simp only [List.map_append]
      mapP := (set_other n3).trans ((hkeep _ (lt_of_some c.mapP) e2).trans c.mapP)
      mapI := (set_other n4).trans ((hkeep _ (lt_of_some c.mapI) e3).trans c.mapI)
      neM := c.neM
      neIP := e1
      neI := c.neI
      neP := ⟨Ne.symm e4, Ne.symm e5, e6⟩
      capI := c.capI
      capP := by simp only [List.length_append]; exact hcap
      lenI := c.lenI
      lenR := c.lenR
      shared := c.shared
      unshared := by
        intro hs
        obtain ⟨f1, f2, f3, f4, f5, T, tl, hT, hr⟩ := c.unshared hs
        have n7 := addr_ne c.ret hr (by intro h; cases h)
        have e7 : y.r0 ≠ a1 := ne_new hor f2 (lt_of_some hr)
        exact ⟨f1, e7, f3, f4, f5, T, tl, hT, (set_other n7).trans ((hkeep _ (lt_of_some hr) e7).trans hr)⟩ }
  · intro o
    exact {
      len := by rw [List.length_set]; exact hlen1
      keep := fun a ha h1 h2 h3 h4 h5 => (set_other (Ne.symm h1)).trans (hkeep a ha (ne_new hor h3 ha))
      bI := .inl rfl
      bP := hor.imp id (fun h => Nat.le_of_eq h.symm)
      r0 := rfl
      mP := rfl
      mI := rfl }

/-- `ret.Indices = append(ret.Indices, block...)` -/
theorem CRep.growI (m : Machine) {h p x t q y st} (ht : TreeAt h p x t) (c : CRep h q x y st) (block : List UInt16) (hb : block ≠ []) : ∃ h1 a1 cap1 tl1,
    appendSlice m tI (some ⟨y.bI, 0, st.indices.length, y.capI⟩) (block.map (.u16 tyU16)) h =
      .ok (some ⟨a1, 0, st.indices.length + block.length, cap1⟩, h1) ∧
    h1[q]? = some (.struct tRaw (retFields y st)) ∧
    CRep (h1.set q (.struct tRaw (retFields { y with bI := a1, capI := cap1, tlI := tl1 } (st.appendIndices block))))
      q x { y with bI := a1, capI := cap1, tlI := tl1 } (st.appendIndices block) ∧
    ∀ o, Built h q y (h1.set q o) { y with bI := a1, capI := cap1, tlI := tl1 } := by
  obtain ⟨h1, a1, cap1, tl1, happ, harr, hcap, hlen1, hkeep, hor'⟩ := appendSlice_spec m tI (.u16 tyU16 0) (fun _ => rfl) c.inds
    (by rw [List.length_map]; exact c.capI) (xs := block.map (.u16 tyU16)) (by intro h; exact hb (List.map_eq_nil_iff.mp h))
  simp only [List.length_map] at happ harr hcap hor'
  have hor : a1 = y.bI ∨ a1 = h.length := hor'.imp (fun h => h.2.1) (fun h => h.2)
  have n1 := addr_ne c.ret c.inds (by intro h; cases h)
  have n2 := addr_ne c.ret c.props (by intro h; cases h)
  have n3 := addr_ne c.ret c.mapP (by intro h; cases h)
  have n4 := addr_ne c.ret c.mapI (by intro h; cases h)
  have e0 : q ≠ a1 := ne_new hor n1 (lt_of_some c.ret)
  have e1 : y.bP ≠ a1 := ne_new hor (Ne.symm c.neIP) (lt_of_some c.props)
  have e2 : y.mP ≠ a1 := ne_new hor (addr_ne c.mapP c.inds (by intro h; cases h)) (lt_of_some c.mapP)
  have e3 : y.mI ≠ a1 := ne_new hor (addr_ne c.mapI c.inds (by intro h; cases h)) (lt_of_some c.mapI)
  have e4 : x.aI ≠ a1 := ne_new hor (Ne.symm c.neI.1) (lt_of_some ht.inds)
  have e5 : x.aP ≠ a1 := ne_new hor (Ne.symm c.neI.2.1) (lt_of_some ht.props)
  have e6 : 2 ≤ a1 := by
    have := c.neI.2.2
    have := lt_of_some c.inds
    clear n1 n2 n3 n4 e0 e1 e2 e3 e4 e5
    omega
  have hq1 : h1[q]? = _ := (hkeep q (lt_of_some c.ret) e0).trans c.ret
  refine ⟨h1, a1, cap1, tl1, happ, hq1, ?_, ?_⟩
  · exact {
      ret := set_self hq1
      props := (set_other n2).trans ((hkeep _ (lt_of_some c.props) e1).trans c.props)
      inds := by rw [set_other e0, harr]; simp only [List.map_append, Gen.CState.appendIndices]
      mapP := (set_other n3).trans ((hkeep _ (lt_of_some c.mapP) e2).trans c.mapP)
      mapI := (set_other n4).trans ((hkeep _ (lt_of_some c.mapI) e3).trans c.mapI)
      neM := c.neM
      neIP := Ne.symm e1
      neI := ⟨Ne.symm e4, Ne.symm e5, e6⟩
      neP := c.neP
      capI := by simp only [Gen.CState.appendIndices, List.length_append]; exact hcap
      capP := c.capP
      lenI := by simp only [Gen.CState.appendIndices, List.length_append]; exact Nat.le_trans c.lenI (Nat.le_add_right _ _)
      lenR := c.lenR
      shared := by
        intro hs
        simp only [Gen.CState.appendIndices, Bool.and_eq_true, decide_eq_true_eq] at hs
        obtain ⟨f1, f2⟩ := c.shared hs.1
        rcases hor' with ⟨g1, g2, g3⟩ | ⟨g1, g2⟩
        · exact ⟨f1.trans g2.symm, g3.trans f2⟩
        · rw [f2] at g1; exact absurd hs.2 g1
      unshared := by
        intro hs
        simp only [Gen.CState.appendIndices] at hs
        rcases hsh : st.shared with _ | _
        · obtain ⟨f1, f2, f3, f4, f5, T, tl, hT, hr⟩ := c.unshared hsh
          have n7 := addr_ne c.ret hr (by intro h; cases h)
          have e7 : y.r0 ≠ a1 := ne_new hor f1 (lt_of_some hr)
          exact ⟨e7, f2, f3, f4, f5, T, tl, hT, (set_other n7).trans ((hkeep _ (lt_of_some hr) e7).trans hr)⟩
        · obtain ⟨f1, f2⟩ := c.shared hsh
          rw [hsh] at hs
          simp only [Bool.true_and, decide_eq_false_iff_not] at hs
          have e7 : y.r0 ≠ a1 := by
            rcases hor' with ⟨g1, _, _⟩ | ⟨_, g2⟩
            · rw [f2] at g1; exact absurd g1 hs
            · rw [g2, f1]; exact Nat.ne_of_lt (lt_of_some c.inds)
          have hr := c.inds
          rw [← f1] at hr
          refine ⟨e7, ?_, ?_, ?_, ?_, st.indices, y.tlI, c.lenI, (set_other (by rw [f1]; exact n1)).trans ((hkeep _ (lt_of_some hr) e7).trans hr)⟩
          · show y.r0 ≠ y.bP; rw [f1]; exact c.neIP
          · show y.r0 ≠ x.aI; rw [f1]; exact c.neI.1
          · show y.r0 ≠ x.aP; rw [f1]; exact c.neI.2.1
          · show 2 ≤ y.r0; rw [f1]; exact c.neI.2.2 }
  · intro o
    exact {
      len := by rw [List.length_set]; exact hlen1
      keep := fun a ha h1 h2 h3 h4 h5 => (set_other (Ne.symm h1)).trans (hkeep a ha (ne_new hor h2 ha))
      bP := .inl rfl
      bI := hor.imp id (fun h => Nat.le_of_eq h.symm)
      r0 := rfl
      mP := rfl
      mI := rfl }


/-- The parameters of `buildCompactedBlocks`. -/
def envB (p q : Nat) (n : Nat) (src dst : Sl) (i : Nat) (mp mi : Nat) : Env :=
  [(name! "indexBlockIdxs", .map tI mi), (name! "propBlockIdxs", .map tI mp), (name! "currentIdx", .int tyInt i),
    (name! "dstIndices", .slice noName tI (some dst)), (name! "srcIndices", .slice noName tI (some src)),
    (name! "indexLevels", .int tyInt n), (name! "ret", .ptr tRaw q), (name! "t", .ptr tTree p)]

/-- The element of `dstIndices` that is stored to is there, whatever has been built in the meantime. -/
structure DstOK (h : Heap) (q : Nat) (x : Loc) (y : CLoc) (dst : Sl) (i : Nat) : Prop where
  off : dst.off = 0
  len : i < dst.len
  arr : ∀ h1 y' st', CRep h1 q x y' st' → Built h q y h1 y' →
    ∃ (D : List UInt16) (tl : List Val), h1[dst.a]? = some (.arr (D.map (.u16 tyU16) ++ tl)) ∧ i < D.length

/-- What a call of `buildCompactedBlocks` does: `w` is stored in `dstIndices[i]` after the state has become `st'`. -/
def Wrote (res : Except Halt (List Val × Heap)) (h : Heap) (q : Nat) (x : Loc) (y : CLoc) (st' : Gen.CState) (dst : Sl) (i : Nat) (w : UInt16) : Prop :=
  ∃ (h1 : Heap) (y' : CLoc) (D : List UInt16) (tl : List Val), CRep h1 q x y' st' ∧ Built h q y h1 y' ∧
    h1[dst.a]? = some (.arr (D.map (.u16 tyU16) ++ tl)) ∧ i < D.length ∧
    res = .ok ([], h1.set dst.a (.arr ((D.set i w).map (.u16 tyU16) ++ tl)))

theorem loadMap_vals {h : Heap} {a : Nat} {mp : Gen.BlockMap} (ha : h[a]? = some (.map (mapVals mp))) (k : GoString) :
    loadMap tI a k h = .ok ((match mp.get k with | some v => (.u16 tyU16 v, true) | none => (.u16 tyU16 0, false)), h) := by
  simp only [loadMap, bind_apply, load_some ha, bindR_ok, mapGet_vals]
  cases mp.get k <;> rfl

theorem storeMap_vals {h : Heap} {a : Nat} {mp : List (GoString × Val)} (ha : h[a]? = some (.map mp)) (k : GoString) (v : Val) :
    storeMap a k v h = .ok ((), h.set a (.map ((k, v) :: mp))) := by
  simp only [storeMap, bind_apply, load_some ha, bindR_ok]
  rfl

theorem CRep.addProps (m : Machine) {h p x t q y st} (ht : TreeAt h p x t) (c : CRep h q x y st) (w : Gen.Which) (block : List UInt8) (hb : block ≠ []) : ∃ h1 h2 h3 a1 cap1 y',
    appendSlice m tB (some ⟨y.bP, 0, st.props.length, y.capP⟩) (block.map (.u8 tyU8)) h =
      .ok (some ⟨a1, 0, st.props.length + block.length, cap1⟩, h1) ∧
    load q h1 = .ok (.struct tRaw (retFields y st), h1) ∧
    h1.set q (.struct tRaw [(name! "Indices", .slice noName tI (some ⟨y.bI, 0, st.indices.length, y.capI⟩)),
      (name! "Properties", .slice noName tB (some ⟨a1, 0, st.props.length + block.length, cap1⟩))]) = h2 ∧
    storeMap (y.addr w) block (.u16 tyU16 (UInt16.ofNat (st.props.length >>> 6))) h2 = .ok ((), h3) ∧
    CRep h3 q x y' (({ st with props := st.props ++ block } : Gen.CState).putMap w block (UInt16.ofNat (st.props.length >>> 6))) ∧
    Built h q y h3 y' := by
  obtain ⟨h1, a1, cap1, tl1, happ, hq1, c1, b1⟩ := c.growP m ht block hb
  have c2 := c1.put w block (UInt16.ofNat (st.props.length >>> 6))
  have b2 := (b1 (.struct tRaw (retFields { y with bP := a1, capP := cap1, tlP := tl1 } { st with props := st.props ++ block }))).trans (Built.put _ q _ w
    (.map ((block, Val.u16 tyU16 (UInt16.ofNat (st.props.length >>> 6))) :: mapVals (Gen.CState.getMap { st with props := st.props ++ block } w))))
  refine ⟨h1, _, _, a1, cap1, _, happ, load_some hq1, rfl, ?_, c2, b2⟩
  have hsm := storeMap_vals (c1.map w) block (Val.u16 tyU16 (UInt16.ofNat (st.props.length >>> 6)))
  have e : CLoc.addr { y with bP := a1, capP := cap1, tlP := tl1 } w = y.addr w := by cases w <;> rfl
  rw [e] at hsm ⊢
  simp only [retFields, List.length_append] at hsm ⊢
  exact hsm

theorem CRep.addIndices (m : Machine) {h p x t q y st} (ht : TreeAt h p x t) (c : CRep h q x y st) (w : Gen.Which) (key : GoString) (block : List UInt16) (hb : block ≠ []) : ∃ h1 h2 h3 a1 cap1 y',
    appendSlice m tI (some ⟨y.bI, 0, st.indices.length, y.capI⟩) (block.map (.u16 tyU16)) h =
      .ok (some ⟨a1, 0, st.indices.length + block.length, cap1⟩, h1) ∧
    load q h1 = .ok (.struct tRaw (retFields y st), h1) ∧
    h1.set q (.struct tRaw [(name! "Indices", .slice noName tI (some ⟨a1, 0, st.indices.length + block.length, cap1⟩)),
      (name! "Properties", .slice noName tB (some ⟨y.bP, 0, st.props.length, y.capP⟩))]) = h2 ∧
    storeMap (y.addr w) key (.u16 tyU16 (UInt16.ofNat (st.indices.length >>> 6))) h2 = .ok ((), h3) ∧
    CRep h3 q x y' ((st.appendIndices block).putMap w key (UInt16.ofNat (st.indices.length >>> 6))) ∧
    Built h q y h3 y' := by
  obtain ⟨h1, a1, cap1, tl1, happ, hq1, c1, b1⟩ := c.growI m ht block hb
  have c2 := c1.put w key (UInt16.ofNat (st.indices.length >>> 6))
  have b2 := (b1 (.struct tRaw (retFields { y with bI := a1, capI := cap1, tlI := tl1 } (st.appendIndices block)))).trans (Built.put _ q _ w
    (.map ((key, Val.u16 tyU16 (UInt16.ofNat (st.indices.length >>> 6))) :: mapVals (Gen.CState.getMap (st.appendIndices block) w))))
  refine ⟨h1, _, _, a1, cap1, _, happ, load_some hq1, rfl, ?_, c2, b2⟩
  have hsm := storeMap_vals (c1.map w) key (Val.u16 tyU16 (UInt16.ofNat (st.indices.length >>> 6)))
  have e : CLoc.addr { y with bI := a1, capI := cap1, tlI := tl1 } w = y.addr w := by cases w <;> rfl
  rw [e] at hsm ⊢
  simp only [retFields, List.length_append, Gen.CState.appendIndices] at hsm ⊢
  exact hsm

theorem leafTail (m : Machine) (hW : 32 ≤ m.W) (L d : Nat) (p q n : Nat) (src dst : Sl) (i : Nat) (y : CLoc) (pw iw : Gen.Which) (h : Heap) (v : UInt16) (sl : Sl)
    (x : Loc) (t : Gen.Tree) (st : Gen.CState)
    (ht : TreeAt h p x t) (c : CRep h q x y st) (l : List Val) (block : List UInt8) (hl : h[sl.a]? = some (.arr l))
    (hb : (l.drop sl.off).take sl.len = block.map (.u8 tyU8)) (hbl : block.length = 64) (hsl : sl.len = 64) (hd : DstOK h q x y dst i) :
    ∀ st' w, (match (st.getMap pw).get block with
      | some i => (st, i)
      | none => (({ st with props := st.props ++ block } : Gen.CState).putMap pw block (UInt16.ofNat (st.props.length >>> 6)), UInt16.ofNat (st.props.length >>> 6))) = (st', w) →
    Wrote (bindR (execs (ctx m L (d + 3)) L (dropS 4 fn_build.body) 0
      ((name! "srcBlock", .slice noName tB (some sl)) :: (name! "srcBlockIdx", .u16 tyU16 v) :: envB p q n src dst i (y.addr pw) (y.addr iw)) h)
        (returned (ctx m L (d + 3)) [])) h q x y st' dst i w := by
  intro st' w hst
  obtain ⟨da, doff, dlen, dcap⟩ := dst
  obtain rfl : doff = 0 := hd.off
  have hk := propertyKey_spec m hW L d h sl l block hl hb
  rw [if_pos hsl] at hk
  have hm := loadMap_vals (c.map pw) block
  have pos := fun h => @position_ok h ⟨da, 0, dlen, dcap⟩ i hd.len
  rcases hg : (st.getMap pw).get block with _ | v'
  · rw [hg] at hst hm
    simp only [Prod.mk.injEq] at hst
    obtain ⟨rfl, rfl⟩ := hst
    obtain ⟨h1, h2, h3, a1, cap1, y', happ, hret1, hh2, hh3, c3, b3⟩ := c.addProps m ht pw block (by intro h; rw [h] at hbl; simp at hbl)
    have hr := readSlice_some hl
    rw [hb] at hr
    have hret := load_some c.ret
    obtain ⟨D, tl, hD, hi⟩ := hd.arr _ _ _ c3 b3
    refine ⟨h3, y', D, tl, c3, b3, hD, hi, ?_⟩
    have hld := loadElem_some (i := i) (v := .u16 tyU16 D[i]) hD (by rw [List.getElem?_append_left (by simpa using hi)]; simp)
    have hst := fun v => storeElem_some (v := v) (i := i) hD (by simp; omega)
    have hcv : UInt16.ofNat (((st.props.length : Int) / 64).emod 65536).toNat = UInt16.ofNat (st.props.length / 64) := u16_conv (st.props.length / 64)
    rw [Nat.shiftRight_eq_div_pow] at *
    simp only [retFields] at hret hret1
    simp [mem_exec, fn_build, dropS, envB, hk, hm, hret, hr, happ, hret1, hh2, hh3, hcv, pos, hld, hst]
    rw [List.set_append_left _ _ (by simpa using hi)]
  · rw [hg] at hst hm
    simp only [Prod.mk.injEq] at hst
    obtain ⟨rfl, rfl⟩ := hst
    obtain ⟨D, tl, hD, hi⟩ := hd.arr _ _ _ c (Built.refl h q y)
    refine ⟨h, y, D, tl, c, Built.refl h q y, hD, hi, ?_⟩
    have hld := loadElem_some (i := i) (v := .u16 tyU16 D[i]) hD (by rw [List.getElem?_append_left (by simpa using hi)]; simp)
    have hst := fun v => storeElem_some (v := v) (i := i) hD (by simp; omega)
    simp [mem_exec, fn_build, dropS, envB, hk, hm, pos, hld, hst]
    rw [List.set_append_left _ _ (by simpa using hi)]

/-- The arguments of `buildCompactedBlocks`. -/
def argsB (q : Nat) (n : Nat) (src dst : Sl) (i : Nat) (mp mi : Nat) : List Val :=
  [.ptr tRaw q, .int tyInt n, .slice noName tI (some src), .slice noName tI (some dst), .int tyInt i, .map tI mp, .map tI mi]

theorem leafHead_zero (m : Machine) (hW : 32 ≤ m.W) (L d : Nat) (p q : Nat) (src dst : Sl) (i : Nat) (mp mi : Nat) (h : Heap)
    (S : List Val) (hS : h[src.a]? = some (.arr S)) (hi : i < src.len) (hv : S[src.off + i]? = some (.u16 tyU16 0)) :
    R m L (d + 4) (.method (.ptr tTree p) (name! "buildCompactedBlocks") (argsB q 0 src dst i mp mi)) h =
    bindR (execs (ctx m L (d + 3)) L (dropS 4 fn_build.body) 0
      ((name! "srcBlock", .slice noName tB (some ⟨h.length, 0, 64, 64⟩)) :: (name! "srcBlockIdx", .u16 tyU16 0) :: envB p q 0 src dst i mp mi)
        (h ++ [.arr (List.replicate 64 (.u8 tyU8 0))]))
        (returned (ctx m L (d + 3)) []) := by
  rw [R_build]
  have c0 := wrap_small m.W hW 0 (by omega) (by omega)
  have c1 := wrap_small m.W hW 64 (by omega) (by omega)
  have hle := loadElem_some hS hv
  have pos := fun h => @position_ok h src i hi
  simp [mem_exec, fn_build, dropS, envB, argsB, hle, pos, c0, c1, makeOf, -List.reduceReplicate]
  done

theorem leafHead_some (m : Machine) (hW : 32 ≤ m.W) (L d : Nat) (p q : Nat) (src dst : Sl) (i : Nat) (mp mi : Nat) (h : Heap) (x : Loc) (t : Gen.Tree)
    (ht : TreeAt h p x t) (v : UInt16) (s : Nat) (hv0 : v ≠ 0)
    (S : List Val) (hS : h[src.a]? = some (.arr S)) (hi : i < src.len) (hv : S[src.off + i]? = some (.u16 tyU16 v))
    (hs : (v <<< 6).toNat = s) (hs' : (v <<< 6 + 64).toNat = s + 64) (hc : s + 64 ≤ x.capP) :
    R m L (d + 4) (.method (.ptr tTree p) (name! "buildCompactedBlocks") (argsB q 0 src dst i mp mi)) h =
    bindR (execs (ctx m L (d + 3)) L (dropS 4 fn_build.body) 0
      ((name! "srcBlock", .slice noName tB (some ⟨x.aP, s, 64, x.capP - s⟩)) :: (name! "srcBlockIdx", .u16 tyU16 v) :: envB p q 0 src dst i mp mi)
        h)
        (returned (ctx m L (d + 3)) []) := by
  rw [R_build]
  have c0 := wrap_small m.W hW 0 (by omega) (by omega)
  have c1 := wrap_small m.W hW 64 (by omega) (by omega)
  have hle := loadElem_some hS hv
  have pos := fun h => @position_ok h src i hi
  have hb := load_some ht.obj
  simp only [treeFields] at hb
  have hv0' : (v == 0) = false := by simp [hv0]
  have h1 : (0 : Int) ≤ (s : Int) ∧ (s : Int) ≤ (s : Int) + 64 ∧ (s : Int) + 64 ≤ x.capP := by omega
  have h2 : ((s : Int) + 64 - s).toNat = 64 := by omega
  simp [mem_exec, fn_build, dropS, envB, argsB, hle, pos, c0, c1, makeOf, hv0', hb, hs, hs', h1, h2, -List.reduceReplicate]
  done

theorem leafHead_bad (m : Machine) (hW : 32 ≤ m.W) (L d : Nat) (p q : Nat) (src dst : Sl) (i : Nat) (mp mi : Nat) (h : Heap) (x : Loc) (t : Gen.Tree)
    (ht : TreeAt h p x t) (v : UInt16) (hv0 : v ≠ 0)
    (S : List Val) (hS : h[src.a]? = some (.arr S)) (hi : i < src.len) (hv : S[src.off + i]? = some (.u16 tyU16 v))
    (hs : (v <<< 6 + 64).toNat < (v <<< 6).toNat) :
    R m L (d + 4) (.method (.ptr tTree p) (name! "buildCompactedBlocks") (argsB q 0 src dst i mp mi)) h = .error (.panic .sliceOutOfRange) := by
  rw [R_build]
  have c0 := wrap_small m.W hW 0 (by omega) (by omega)
  have c1 := wrap_small m.W hW 64 (by omega) (by omega)
  have hle := loadElem_some hS hv
  have pos := fun h => @position_ok h src i hi
  have hb := load_some ht.obj
  simp only [treeFields] at hb
  have hv0' : (v == 0) = false := by simp [hv0]
  generalize ha : v <<< 6 = a at *
  generalize he : a + 64 = e at *
  have h1 : ¬ ((a.toNat : Int) ≤ (e.toNat : Int)) := by omega
  simp [mem_exec, fn_build, dropS, envB, argsB, hle, pos, c0, c1, makeOf, hv0', hb, ha, he, h1, -List.reduceReplicate]
  done

theorem u16_start (v : UInt16) : (v <<< 6).toNat = 64 * (v.toNat % 1024) := by
  rw [UInt16.toNat_shiftLeft, Nat.shiftLeft_eq, show (6 : UInt16).toNat % 16 = 6 from rfl]
  omega

theorem u16_end (v : UInt16) : (v <<< 6 + 64).toNat = (64 * (v.toNat % 1024) + 64) % 65536 := by
  rw [UInt16.toNat_add, u16_start]; rfl

/-- The block index `v`, at a level with `n` levels of index blocks below it, refers to blocks that are there. -/
def OKSrc (t : Gen.Tree) : Nat → UInt16 → Prop
  | 0, v => v = 0 ∨ 64 * v.toNat + 64 ≤ t.rawProps.length
  | n + 1, v => v = 0 ∨ (v.toNat < 1023 ∧ 64 * v.toNat + 64 ≤ t.indices.length ∧ ∀ w, w ∈ (t.indices.drop (64 * v.toNat)).take 64 → OKSrc t n w)

theorem OKSrc.zero (t : Gen.Tree) (n : Nat) : OKSrc t n 0 := by cases n <;> exact .inl rfl

/-- `srcIndices[i]` is `v`. -/
structure SrcAt (h : Heap) (src : Sl) (i : Nat) (v : UInt16) : Prop where
  lt : i < src.len
  at_ : ∃ S, h[src.a]? = some (.arr S) ∧ S[src.off + i]? = some (.u16 tyU16 v)

theorem DstOK.mono {h h0 q x y dst i} (d : DstOK h q x y dst i) (b : Built h q y h0 y) : DstOK h0 q x y dst i where
  off := d.off
  len := d.len
  arr := fun h1 y' st' c b' => d.arr h1 y' st' c (b.trans b')

theorem Wrote.mono {res h h0 q x y st' dst i w} (d : Wrote res h0 q x y st' dst i w) (b : Built h q y h0 y) : Wrote res h q x y st' dst i w := by
  obtain ⟨h1, y', D, tl, c, b', h2⟩ := d
  exact ⟨h1, y', D, tl, c, b.trans b', h2⟩

/-- What a call of `buildCompactedBlocks` does, given what the model says. -/
def Agrees (res : Except Halt (List Val × Heap)) (h : Heap) (q : Nat) (x : Loc) (y : CLoc) (dst : Sl) (i : Nat) : Go (Gen.CState × UInt16) → Prop
  | .ok (st', w) => Wrote res h q x y st' dst i w
  | .error _ => ∃ e, res = .error (.panic e)

theorem leaf_spec (m : Machine) (hW : 32 ≤ m.W) (L d : Nat) (p q : Nat) (src dst : Sl) (i : Nat) (y : CLoc) (pw iw : Gen.Which) (h : Heap) (v : UInt16)
    (x : Loc) (t : Gen.Tree) (st : Gen.CState) (ht : TreeAt h p x t) (c : CRep h q x y st) (hs : SrcAt h src i v) (hok : OKSrc t 0 v) (hd : DstOK h q x y dst i) :
    Agrees (R m L (d + 4) (.method (.ptr tTree p) (name! "buildCompactedBlocks") (argsB q 0 src dst i (y.addr pw) (y.addr iw))) h) h q x y dst i
      (Gen.build t 0 pw iw st v) := by
  obtain ⟨hi, S, hS, hv⟩ := hs
  by_cases h0 : v = 0
  · subst h0
    have hm : Gen.build t 0 pw iw st 0 = .ok (match (st.getMap pw).get (List.replicate 64 0) with
        | some i => (st, i)
        | none => (({ st with props := st.props ++ List.replicate 64 0 } : Gen.CState).putMap pw (List.replicate 64 0) (UInt16.ofNat (st.props.length >>> 6)), UInt16.ofNat (st.props.length >>> 6))) := by
      simp only [Gen.build, Gen.buildLeaf, Gen.srcBlock, if_true, bind, Except.bind, Gen.propertyBlockKey, List.length_replicate, ne_eq, not_true, if_false]
      split <;> (rename_i hg; rw [hg])
    rw [hm, leafHead_zero m hW L d p q src dst i _ _ h S hS hi hv]
    have hw := leafTail m hW L d p q 0 src dst i y pw iw _ 0 ⟨h.length, 0, 64, 64⟩ x t st (ht.built c (Built.push h q y _)) (c.push (.arr (List.replicate 64 (.u8 tyU8 0)))) _ (List.replicate 64 0) push_new
      (by simp) (by simp) rfl (hd.mono (Built.push h q y _)) _ _ rfl
    exact hw.mono (Built.push h q y _)
  · have hk : 64 * v.toNat + 64 ≤ t.rawProps.length := hok.resolve_left h0
    have e1 := u16_start v
    have e2 := u16_end v
    by_cases hb : v.toNat % 1024 = 1023
    · have hlt : (v <<< 6 + 64).toNat < (v <<< 6).toNat := by omega
      have hm : Gen.build t 0 pw iw st v = .error .sliceOutOfRange := by
        simp only [Gen.build, Gen.buildLeaf, Gen.srcBlock, if_neg h0, bind, Except.bind, Gen.goSlice]
        rw [if_neg (by omega)]
      rw [hm, leafHead_bad m hW L d p q src dst i _ _ h x t ht v h0 S hS hi hv hlt]
      exact ⟨_, rfl⟩
    · generalize hs : 64 * (v.toNat % 1024) = s at *
      have e2 : (v <<< 6 + 64).toNat = s + 64 := by omega
      have hsl : s + 64 ≤ t.rawProps.length := by omega
      have hlen : ((t.rawProps.take (s + 64)).drop s).length = 64 := by simp; omega
      have hm : Gen.build t 0 pw iw st v = .ok (match (st.getMap pw).get ((t.rawProps.take (s + 64)).drop s) with
          | some i => (st, i)
          | none => (({ st with props := st.props ++ (t.rawProps.take (s + 64)).drop s } : Gen.CState).putMap pw ((t.rawProps.take (s + 64)).drop s) (UInt16.ofNat (st.props.length >>> 6)), UInt16.ofNat (st.props.length >>> 6))) := by
        simp only [Gen.build, Gen.buildLeaf, Gen.srcBlock, if_neg h0, bind, Except.bind, Gen.goSlice, e1, e2]
        rw [if_pos (by omega)]
        simp only [Gen.propertyBlockKey, hlen, ne_eq, not_true, if_false]
        split <;> (rename_i hg; rw [hg])
      have hcap := ht.capP
      rw [hm, leafHead_some m hW L d p q src dst i _ _ h x t ht v s h0 S hS hi hv e1 e2 (by omega)]
      exact leafTail m hW L d p q 0 src dst i y pw iw h v ⟨x.aP, s, 64, x.capP - s⟩ x t st ht c _ _ ht.props
        (by
          rw [List.drop_append_of_le_length (by simp; omega), List.take_append_of_le_length (by simp; omega)]
          rw [← List.map_drop, ← List.map_take, List.take_drop]) hlen rfl hd _ _ rfl
end Textseg.GoMem
