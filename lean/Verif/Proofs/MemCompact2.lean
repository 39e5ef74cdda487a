import Verif.Proofs.MemBuild
/-!
# The code of `Compact` does what the model says
-/

namespace Textseg.GoMem
open Textseg.GoLang (TyId tyInt tyU8 Halt importName wrap)
set_option linter.unusedSimpArgs false

theorem TreeAt.setMap {h p x t} (ht : TreeAt h p x t) {a : Nat} {mp : List (GoString × Val)} (ha : h[a]? = some (.map mp)) (o : Obj) : TreeAt (h.set a o) p x t :=
  { ht with
    obj := (set_other (addr_ne ha ht.obj (by intro h; cases h))).trans ht.obj
    props := (set_other (addr_ne ha ht.props (by intro h; cases h))).trans ht.props
    inds := (set_other (addr_ne ha ht.inds (by intro h; cases h))).trans ht.inds
    zero0 := (set_other (addr_ne ha ht.zero0 (by intro h; cases h))).trans ht.zero0
    zero1 := (set_other (addr_ne ha ht.zero1 (by intro h; cases h))).trans ht.zero1 }

/-- The body of the first loop in `Compact`. -/
def rootBody : Stmts := bodyOf (stmtAt 11 fn_Compact.body)

/-- The variables of `Compact`. -/
def envC (p q : Nat) (x : Loc) (y : CLoc) (capR : Nat) (props : Option Sl) : Env :=
  [(name! "ret", .cell tRaw q), (name! "srcRootIndices", .slice noName tI (some ⟨x.aI, 0, 64, x.capI⟩)), (name! "dstRootIndices", .slice noName tI (some ⟨y.r0, 0, 64, capR⟩)),
    (name! "indexBlockIdxs", .map tI y.mI), (name! "propBlockIdxs", .map tI y.mP), (name! "indices", .slice noName tI (some ⟨y.r0, 0, 64, capR⟩)), (name! "props", .slice noName tB props), (name! "t", .ptr tTree p)]

/-- The state of `Compact` before the first loop. -/
def startC (t : Gen.Tree) : Gen.CState :=
  { props := t.rawProps.take 128, indices := List.replicate 64 0,
    propMap := (Gen.BlockMap.put [] (t.rawProps.take 64) 0).put ((t.rawProps.drop 64).take 64) 1,
    indexMap := [], root := List.replicate 64 0, shared := true, cap := t.indices.length * 4 }

/-- Where it is, if `n` is the number of objects in the memory before `Compact`. -/
def startY (m : Machine) (t : Gen.Tree) (n : Nat) : CLoc where
  bI := n + 3
  capI := t.indices.length * 4
  tlI := List.replicate (t.indices.length * 4 - 64) (.u16 tyU16 0)
  bP := n + 2
  capP := max 128 (m.grow 0 128)
  tlP := List.replicate (max 128 (m.grow 0 128) - 128) (.u8 tyU8 0)
  r0 := n + 3
  mP := n
  mI := n + 1

/-- What follows the first loop in `Compact`. -/
def compactRest (m : Machine) (L e : Nat) (res : Except Halt (Out × Heap)) : Except Halt (List Val × Heap) :=
  bindR (bindR res (andThen (ctx m L (e + 3)) L 0 (dropS 12 fn_Compact.body))) (returned (ctx m L (e + 3)) fn_Compact.results)

theorem compactHead (m : Machine) (hW : 32 ≤ m.W) (L e : Nat) (p : Nat) (h : Heap) (x : Loc) (t : Gen.Tree) (ht : TreeAt h p x t)
    (hP : 128 ≤ t.rawProps.length) (hI : 64 ≤ t.indices.length) (hI' : t.indices.length < 900000) :
    ∃ hF q y props, R m L (e + 4) (.method (.ptr tTree p) (name! "Compact") []) h =
      compactRest m L e (rangeN (rangeBody (ctx m L (e + 3)) L ⟨x.aI, 0, 64, x.capI⟩ (name! "i") 0 rootBody) 64 0 (envC p q x y (t.indices.length * 4) props) hF) ∧
      TreeAt hF p x t ∧ CRep hF q x y (startC t) ∧ h.length ≤ q ∧ (∀ a, a < h.length → hF[a]? = h[a]?) := by
  rw [R_Compact]
  have c0 := wrap_small m.W hW 0 (by omega) (by omega)
  have c1 := wrap_small m.W hW 64 (by omega) (by omega)
  have c2 := wrap_small m.W hW 128 (by omega) (by omega)
  have c4 := wrap_small m.W hW 4 (by omega) (by omega)
  have c5 := wrap_small m.W hW (t.indices.length * 4) (by omega) (by omega)
  have capI := ht.capI
  have capP := ht.capP
  -- the maps
  have uA := (ht.push (.map [])).push (.map [])
  have lA : ((h ++ [Obj.map []]) ++ [Obj.map []]).length = h.length + 2 := by simp
  have mA : ((h ++ [Obj.map []]) ++ [Obj.map []])[h.length]? = some (.map []) := by rw [push_old (by simp)]; exact push_new
  have iA : ((h ++ [Obj.map []]) ++ [Obj.map []])[h.length + 1]? = some (.map []) := by
    rw [show h.length + 1 = (h ++ [Obj.map []]).length by simp]; exact push_new
  have eA : h ++ [Obj.map [], Obj.map []] = (h ++ [Obj.map []]) ++ [Obj.map []] := by simp
  generalize hhA : (h ++ [Obj.map []]) ++ [Obj.map []] = hA at *
  have obA := load_some uA.obj
  simp only [treeFields] at obA
  have k0 := propertyKey_spec m hW L e hA ⟨x.aP, 0, 64, x.capP⟩ _ (t.rawProps.take 64) uA.props
    (by rw [List.drop_zero, List.take_append_of_le_length (by simp; omega), List.map_take])
  rw [if_pos rfl] at k0
  generalize hb0 : t.rawProps.take 64 = b0 at *
  have s0 := storeMap_vals mA b0 (.u16 tyU16 0)
  have uB := uA.setMap mA (.map [(b0, .u16 tyU16 0)])
  have mB := set_self (o' := .map [(b0, .u16 tyU16 0)]) mA
  have iB := (set_other (o := .map [(b0, .u16 tyU16 0)]) (show h.length ≠ h.length + 1 by omega)).trans iA
  have lB : (hA.set h.length (.map [(b0, .u16 tyU16 0)])).length = h.length + 2 := by rw [List.length_set]; exact lA
  generalize hhB : hA.set h.length (.map [(b0, .u16 tyU16 0)]) = hB at *
  have obB := load_some uB.obj
  simp only [treeFields] at obB
  have k1 := propertyKey_spec m hW L e hB ⟨x.aP, 64, 64, x.capP - 64⟩ _ ((t.rawProps.drop 64).take 64) uB.props
    (by rw [List.drop_append_of_le_length (by simp; omega), List.take_append_of_le_length (by simp; omega), List.map_take, List.map_drop])
  rw [if_pos rfl] at k1
  generalize hb1 : (t.rawProps.drop 64).take 64 = b1 at *
  have s1 := storeMap_vals mB b1 (.u16 tyU16 1)
  have uC := uB.setMap mB (.map [(b1, .u16 tyU16 1), (b0, .u16 tyU16 0)])
  have mC := set_self (o' := .map [(b1, .u16 tyU16 1), (b0, .u16 tyU16 0)]) mB
  have iC := (set_other (o := .map [(b1, .u16 tyU16 1), (b0, .u16 tyU16 0)]) (show h.length ≠ h.length + 1 by omega)).trans iB
  have lC : (hB.set h.length (.map [(b1, .u16 tyU16 1), (b0, .u16 tyU16 0)])).length = h.length + 2 := by rw [List.length_set]; exact lB
  generalize hhC : hB.set h.length (.map [(b1, .u16 tyU16 1), (b0, .u16 tyU16 0)]) = hC at *
  have obC := load_some uC.obj
  simp only [treeFields] at obC
  have rC := @readSlice_some hC ⟨x.aP, 0, 128, x.capP⟩ _ uC.props
  rw [List.drop_zero, List.take_append_of_le_length (by simp; omega), ← List.map_take] at rC
  simp only at rC
  have aC : appendSlice m tB none ((t.rawProps.take 128).map (.u8 tyU8)) hC = .ok (some ⟨hC.length, 0, 128, max 128 (m.grow 0 128)⟩,
      hC ++ [Obj.arr ((t.rawProps.take 128).map (.u8 tyU8) ++ List.replicate (max 128 (m.grow 0 128) - 128) (.u8 tyU8 0))]) := by
    have hne : ((t.rawProps.take 128).map (Val.u8 tyU8)).isEmpty = false := by
      rw [List.isEmpty_eq_false_iff]
      intro h; have := congrArg List.length h; rw [List.length_map, List.length_take, List.length_nil] at this; omega
    have hl : ((t.rawProps.take 128).map (Val.u8 tyU8)).length = 128 := by simp; omega
    simp only [appendSlice, hne, Bool.false_eq_true, if_false, Option.getD_none, hl, Nat.zero_add]
    rw [if_neg (by omega)]
    rfl
  have pD := @push_new hC (.arr ((t.rawProps.take 128).map (.u8 tyU8) ++ List.replicate (max 128 (m.grow 0 128) - 128) (.u8 tyU8 0)))
  have uD := uC.push (.arr ((t.rawProps.take 128).map (.u8 tyU8) ++ List.replicate (max 128 (m.grow 0 128) - 128) (.u8 tyU8 0)))
  have mD : (hC ++ [Obj.arr ((t.rawProps.take 128).map (.u8 tyU8) ++ List.replicate (max 128 (m.grow 0 128) - 128) (.u8 tyU8 0))])[h.length]? = _ := (push_old (by omega)).trans mC
  have iD : (hC ++ [Obj.arr ((t.rawProps.take 128).map (.u8 tyU8) ++ List.replicate (max 128 (m.grow 0 128) - 128) (.u8 tyU8 0))])[h.length + 1]? = _ := (push_old (by omega)).trans iC
  have lD : (hC ++ [Obj.arr ((t.rawProps.take 128).map (.u8 tyU8) ++ List.replicate (max 128 (m.grow 0 128) - 128) (.u8 tyU8 0))]).length = h.length + 3 := by rw [List.length_append, lC]; rfl
  rw [lC] at pD aC
  generalize hhD : hC ++ [Obj.arr ((t.rawProps.take 128).map (.u8 tyU8) ++ List.replicate (max 128 (m.grow 0 128) - 128) (.u8 tyU8 0))] = hD at *
  have obD := load_some uD.obj
  simp only [treeFields] at obD
  have nE := @push_new hD (.arr (List.replicate (t.indices.length * 4) (.u16 tyU16 0)))
  have uE := uD.push (.arr (List.replicate (t.indices.length * 4) (.u16 tyU16 0)))
  have mE : (hD ++ [Obj.arr (List.replicate (t.indices.length * 4) (.u16 tyU16 0))])[h.length]? = _ := (push_old (by omega)).trans mD
  have iE : (hD ++ [Obj.arr (List.replicate (t.indices.length * 4) (.u16 tyU16 0))])[h.length + 1]? = _ := (push_old (by omega)).trans iD
  have pE : (hD ++ [Obj.arr (List.replicate (t.indices.length * 4) (.u16 tyU16 0))])[h.length + 2]? = _ := (push_old (by omega)).trans pD
  have lE : (hD ++ [Obj.arr (List.replicate (t.indices.length * 4) (.u16 tyU16 0))]).length = h.length + 4 := by rw [List.length_append, lD]; rfl
  rw [lD] at nE
  generalize hhE : hD ++ [Obj.arr (List.replicate (t.indices.length * 4) (.u16 tyU16 0))] = hE at *
  have obE := load_some uE.obj
  simp only [treeFields] at obE
  generalize hX : (t.rawProps.take 128).map (Val.u8 tyU8) = X at *
  refine ⟨hE ++ [.struct tRaw (retFields (startY m t h.length) (startC t))], h.length + 4, startY m t h.length, some ⟨h.length + 2, 0, 128, max 128 (m.grow 0 128)⟩, ?_, ?_, ?_, by omega, ?_⟩
  · have g1 : (64 : Int) ≤ x.capP := by omega
    have g2 : (128 : Int) ≤ x.capP := by omega
    have g3 : (64 : Int) ≤ x.capI := by omega
    have g4 : (64 : Int) ≤ (t.indices.length : Int) * 4 := by omega
    have g5 : ((t.indices.length : Int) * 4).toNat = t.indices.length * 4 := by omega
    have g6 : (t.rawProps.take 128).length = 128 := by rw [List.length_take]; omega
    simp only [startY, retFields, startC, g6]
    simp [mem_exec, fn_Compact, stmtAt, bodyOf, rootBody, compactRest, envC, startC, dropS, g1, g2, g3, g4, g5, g6, lC, lD, lE, hhD, hhE, c5, c0, c1, c2, c4, make_empty, makeOf, eA, hhA, obA, k0, s0, obB, k1, s1, obC, rC, aC, obD, obE, -List.reduceReplicate]
    done
  · exact uE.push _
  · have g6 : (t.rawProps.take 128).length = 128 := by rw [List.length_take]; omega
    exact {
      ret := by rw [← lE]; exact push_new
      inds := by
        show (hE ++ _)[h.length + 3]? = _
        rw [push_old (by omega), nE]
        simp only [startC, startY, List.map_replicate, List.replicate_append_replicate]
        rw [show 64 + (t.indices.length * 4 - 64) = t.indices.length * 4 by omega]
      props := by
        show (hE ++ _)[h.length + 2]? = _
        rw [push_old (by omega), pE]
        simp only [startC, startY, hX]
      mapP := by
        show (hE ++ _)[h.length]? = _
        rw [push_old (by omega), mE]
        simp only [startC, hb0, hb1]
        rfl
      mapI := by
        show (hE ++ _)[h.length + 1]? = _
        rw [push_old (by omega), iE]
        rfl
      neM := by show h.length ≠ h.length + 1; omega
      neIP := by show h.length + 3 ≠ h.length + 2; omega
      neI := by
        have := lt_of_some ht.inds
        have := lt_of_some ht.props
        show h.length + 3 ≠ x.aI ∧ h.length + 3 ≠ x.aP ∧ 2 ≤ h.length + 3
        omega
      neP := by
        have := lt_of_some ht.inds
        have := lt_of_some ht.props
        show h.length + 2 ≠ x.aI ∧ h.length + 2 ≠ x.aP ∧ 2 ≤ h.length + 2
        omega
      capI := by simp only [startC, startY, List.length_replicate]; omega
      capP := by simp only [startC, startY, g6]; omega
      lenI := by simp [startC]
      lenR := by simp [startC]
      shared := fun _ => ⟨rfl, rfl⟩
      unshared := by intro h; cases h }
  · intro a ha
    rw [push_old (by omega), ← hhE, push_old (by omega), ← hhD, push_old (by omega), ← hhC, set_other (by omega), ← hhB, set_other (by omega), ← hhA,
      push_old (by simp; omega), push_old ha]

theorem rootStep (m : Machine) (hW : 32 ≤ m.W) (L e : Nat) (p q n : Nat) (x : Loc) (y : CLoc) (capR : Nat) (props : Option Sl) (i : Nat) (hi : i < 64)
    (hn : Gen.rootLevels i = .ok n) (h : Heap) :
    rangeBody (ctx m L (e + 4)) L ⟨x.aI, 0, 64, x.capI⟩ (name! "i") 0 rootBody i (envC p q x y capR props) h =
      bindR (R m L (e + 4) (.method (.ptr tTree p) (name! "buildCompactedBlocks") (argsB q n ⟨x.aI, 0, 64, x.capI⟩ ⟨y.r0, 0, 64, capR⟩ i y.mI y.mP)) h) fun _ h =>
        .ok (.next (envC p q x y capR props), h) := by
  have c0 := wrap_small m.W hW 0 (by omega) (by omega)
  have c1 := wrap_small m.W hW 1 (by omega) (by omega)
  have c2 := wrap_small m.W hW 2 (by omega) (by omega)
  have c3 := wrap_small m.W hW 3 (by omega) (by omega)
  rw [rangeBody_apply]
  have hcases : (i / 16 = 0 ∧ n = 0) ∨ (i / 16 = 1 ∧ n = 0) ∨ (i / 16 = 2 ∧ n = 1) ∨ (i / 16 = 3 ∧ n = 2) := by
    simp only [Gen.rootLevels, Nat.shiftRight_eq_div_pow] at hn
    split at hn
    · cases hn; omega
    · split at hn
      · cases hn; omega
      · split at hn
        · cases hn; omega
        · cases hn
  rcases hR : R m L (e + 4) (.method (.ptr tTree p) (name! "buildCompactedBlocks") (argsB q n ⟨x.aI, 0, 64, x.capI⟩ ⟨y.r0, 0, 64, capR⟩ i y.mI y.mP)) h with er | ⟨vs, h1⟩
  · simp only [argsB] at hR
    rcases hcases with ⟨hq, rfl⟩ | ⟨hq, rfl⟩ | ⟨hq, rfl⟩ | ⟨hq, rfl⟩
    · have hq' : (i : Int) / 16 = 0 := by omega
      have e0 : ((0 : Nat) : Int) = 0 := rfl
      rw [e0] at hR
      simp [mem_exec, rootBody, fn_Compact, stmtAt, bodyOf, rangeVars, envC, argsB, c0, c1, c2, c3, hq', hR]
    · have hq' : (i : Int) / 16 = 1 := by omega
      have e0 : ((0 : Nat) : Int) = 0 := rfl
      rw [e0] at hR
      simp [mem_exec, rootBody, fn_Compact, stmtAt, bodyOf, rangeVars, envC, argsB, c0, c1, c2, c3, hq', hR]
    · have hq' : (i : Int) / 16 = 2 := by omega
      have e0 : ((1 : Nat) : Int) = 1 := rfl
      rw [e0] at hR
      simp [mem_exec, rootBody, fn_Compact, stmtAt, bodyOf, rangeVars, envC, argsB, c0, c1, c2, c3, hq', hR]
    · have hq' : (i : Int) / 16 = 3 := by omega
      have e0 : ((2 : Nat) : Int) = 2 := rfl
      rw [e0] at hR
      simp [mem_exec, rootBody, fn_Compact, stmtAt, bodyOf, rangeVars, envC, argsB, c0, c1, c2, c3, hq', hR]
  · simp only [argsB] at hR
    rcases hcases with ⟨hq, rfl⟩ | ⟨hq, rfl⟩ | ⟨hq, rfl⟩ | ⟨hq, rfl⟩
    · have hq' : (i : Int) / 16 = 0 := by omega
      have e0 : ((0 : Nat) : Int) = 0 := rfl
      rw [e0] at hR
      simp [mem_exec, rootBody, fn_Compact, stmtAt, bodyOf, rangeVars, envC, argsB, c0, c1, c2, c3, hq', hR]
    · have hq' : (i : Int) / 16 = 1 := by omega
      have e0 : ((0 : Nat) : Int) = 0 := rfl
      rw [e0] at hR
      simp [mem_exec, rootBody, fn_Compact, stmtAt, bodyOf, rangeVars, envC, argsB, c0, c1, c2, c3, hq', hR]
    · have hq' : (i : Int) / 16 = 2 := by omega
      have e0 : ((1 : Nat) : Int) = 1 := rfl
      rw [e0] at hR
      simp [mem_exec, rootBody, fn_Compact, stmtAt, bodyOf, rangeVars, envC, argsB, c0, c1, c2, c3, hq', hR]
    · have hq' : (i : Int) / 16 = 3 := by omega
      have e0 : ((2 : Nat) : Int) = 2 := rfl
      rw [e0] at hR
      simp [mem_exec, rootBody, fn_Compact, stmtAt, bodyOf, rangeVars, envC, argsB, c0, c1, c2, c3, hq', hR]

/-- The heap after `dstRootIndices[i] = w`. -/
theorem CRep.setRoot {h q x y st} (c : CRep h q x y st) {i : Nat} (hi : i < 64) (w : UInt16) {D : List UInt16} {tl : List Val}
    (hD : h[y.r0]? = some (.arr (D.map (.u16 tyU16) ++ tl))) (hl : i < D.length) : ∃ st', st.setRoot i w = .ok st' ∧
    CRep (h.set y.r0 (.arr ((D.set i w).map (.u16 tyU16) ++ tl))) q x y st' := by
  have hr : i < st.root.length := by rw [c.lenR]; exact hi
  refine ⟨{ st with root := st.root.set i w, indices := if st.shared then st.indices.set i w else st.indices }, ?_, ?_⟩
  · simp only [Gen.CState.setRoot, Gen.goSet, if_pos hr, bind, Except.bind]
  · have n0 := addr_ne hD c.ret (by intro h; cases h)
    have n1 := addr_ne hD c.mapP (by intro h; cases h)
    have n2 := addr_ne hD c.mapI (by intro h; cases h)
    have r := (set_other (o := .arr ((D.set i w).map (.u16 tyU16) ++ tl)) n0).trans c.ret
    have p1 := (set_other (o := .arr ((D.set i w).map (.u16 tyU16) ++ tl)) n1).trans c.mapP
    have p2 := (set_other (o := .arr ((D.set i w).map (.u16 tyU16) ++ tl)) n2).trans c.mapI
    have lenR : (st.root.set i w).length = 64 := by rw [List.length_set]; exact c.lenR
    rcases hs : st.shared with _ | _
    · obtain ⟨f1, f2, f3, f4, f5, T, tl', hT, hr⟩ := c.unshared hs
      simp only [Bool.false_eq_true, if_false]
      exact { c with
        ret := r, mapP := p1, mapI := p2, lenR := lenR
        inds := (set_other f1).trans c.inds
        props := (set_other f2).trans c.props
        shared := fun h => by cases h
        unshared := fun _ => ⟨f1, f2, f3, f4, f5, T.set i w, tl', by rw [List.length_set]; exact hT, by
          rw [set_self hD, ← set_map_append _ _ _ hl, ← set_map_append _ _ _ (show i < T.length by omega)]
          rw [Obj.arr.inj (Option.some.inj (hD.symm.trans hr))]⟩ }
    · obtain ⟨g1, g2⟩ := c.shared hs
      simp only [if_true]
      have hi' : i < st.indices.length := Nat.lt_of_lt_of_le hi c.lenI
      exact { c with
        mapP := p1, mapI := p2, lenR := lenR
        ret := by rw [r]; simp only [retFields, List.length_set]
        inds := by
          rw [← g1, set_self hD, ← set_map_append _ _ _ hl, ← set_map_append _ _ _ hi']
          have hr := c.inds
          rw [← g1] at hr
          rw [Obj.arr.inj (Option.some.inj (hD.symm.trans hr))]
        props := (set_other (by rw [g1]; exact c.neIP)).trans c.props
        capI := by rw [List.length_set]; exact c.capI
        lenI := by rw [List.length_set]; exact c.lenI
        shared := fun _ => ⟨g1, g2⟩
        unshared := fun h => by cases h }

theorem CRep.rootAt {h q x y st} (c : CRep h q x y st) : ∃ (D : List UInt16) (tl : List Val), h[y.r0]? = some (.arr (D.map (.u16 tyU16) ++ tl)) ∧ 64 ≤ D.length := by
  rcases hs : st.shared with _ | _
  · obtain ⟨_, _, _, _, _, T, tl, hT, hr⟩ := c.unshared hs
    exact ⟨T, tl, hr, hT⟩
  · rw [(c.shared hs).1]
    exact ⟨_, _, c.inds, c.lenI⟩

theorem CRep.dstRoot {h q x y st} (_c : CRep h q x y st) (capR i : Nat) (hi : i < 64) : DstOK h q x y ⟨y.r0, 0, 64, capR⟩ i where
  off := rfl
  len := hi
  arr := fun h1 y' st' c' b => by
    obtain ⟨D, tl, hD, hl⟩ := c'.rootAt
    rw [b.r0] at hD
    exact ⟨D, tl, hD, by omega⟩

theorem CRep.root_ne {h p q x y st t} (c : CRep h q x y st) (_ht : TreeAt h p x t) : y.r0 ≠ x.aP ∧ y.r0 ≠ x.aI ∧ 2 ≤ y.r0 := by
  rcases hs : st.shared with _ | _
  · obtain ⟨_, _, h3, h4, h5, _⟩ := c.unshared hs
    exact ⟨h4, h3, h5⟩
  · rw [(c.shared hs).1]
    exact ⟨c.neI.2.1, c.neI.1, c.neI.2.2⟩

/-- Structs, but for the one at `q`, are as they were. -/
def KeepStructs (q : Nat) (h h' : Heap) : Prop := ∀ a t fs, a ≠ q → h[a]? = some (.struct t fs) → h'[a]? = some (.struct t fs)

theorem KeepStructs.trans {q : Nat} {h h' h'' : Heap} (a : KeepStructs q h h') (b : KeepStructs q h' h'') : KeepStructs q h h'' :=
  fun c t fs hc hs => b c t fs hc (a c t fs hc hs)

theorem Built.structs {h q x y st h' y'} (c : CRep h q x y st) (b : Built h q y h' y') : KeepStructs q h h' := by
  intro a t fs ha hs
  rw [b.keep a (lt_of_some hs) ha (addr_ne hs c.inds (by intro h; cases h)) (addr_ne hs c.props (by intro h; cases h))
    (addr_ne hs c.mapP (by intro h; cases h)) (addr_ne hs c.mapI (by intro h; cases h))]
  exact hs

theorem rootLoop_spec (m : Machine) (hW : 32 ≤ m.W) (L e : Nat) (t : Gen.Tree) (p q : Nat) (x : Loc) (capR : Nat) (props : Option Sl) (y0 : CLoc) (vs : List UInt16) :
    ∀ (i : Nat) (h : Heap) (y : CLoc) (st : Gen.CState), TreeAt h p x t → CRep h q x y st → y.r0 = y0.r0 → y.mP = y0.mP → y.mI = y0.mI → i + vs.length = 64 →
    (∀ k w, vs[k]? = some w → t.indices[i + k]? = some w ∧ ∀ n, Gen.rootLevels (i + k) = .ok n → OKSrc t n w) →
    match Gen.rootLoop t i vs st with
    | .ok st' => ∃ h' y', rangeN (rangeBody (ctx m L (e + 6)) L ⟨x.aI, 0, 64, x.capI⟩ (name! "i") 0 rootBody) vs.length i (envC p q x y0 capR props) h =
        .ok (.next (envC p q x y0 capR props), h') ∧ TreeAt h' p x t ∧ CRep h' q x y' st' ∧ KeepStructs q h h'
    | .error _ => ∃ er, rangeN (rangeBody (ctx m L (e + 6)) L ⟨x.aI, 0, 64, x.capI⟩ (name! "i") 0 rootBody) vs.length i (envC p q x y0 capR props) h =
        .error (.panic er) := by
  induction vs with
  | nil =>
    intro i h y st ht c _ _ _ _ _
    exact ⟨h, y, rfl, ht, c, fun _ _ _ _ h => h⟩
  | cons v0 vs ihv =>
    intro i h y st ht c e1 e2 e3 hlen hvs
    obtain ⟨hS, hok⟩ := hvs 0 v0 rfl
    simp only [List.length_cons] at hlen
    have hi : i < 64 := by omega
    obtain ⟨n, hn, hn3⟩ : ∃ n, Gen.rootLevels i = .ok n ∧ n < 3 := by
      simp only [Gen.rootLevels, Nat.shiftRight_eq_div_pow]
      split
      · exact ⟨_, rfl, by omega⟩
      · split
        · exact ⟨_, rfl, by omega⟩
        · rw [if_pos (by omega)]
          exact ⟨_, rfl, by omega⟩
    have hspec : BuildSpec m L (e + 6) n t := by
      have := build_spec m hW L (e + 2 - n) t n (by omega)
      rw [show e + 2 - n + n + 4 = e + 6 by omega] at this
      exact this
    have hcall := hspec p q ⟨x.aI, 0, 64, x.capI⟩ ⟨y.r0, 0, 64, capR⟩ i y .indexMap .propMap h v0 x st ht c
      ⟨hi, _, ht.inds, by
        show _[0 + i]? = _
        rw [Nat.zero_add, List.getElem?_append_left (by rw [List.length_map]; exact lt_of_some hS), List.getElem?_map]
        simp only [Nat.add_zero] at hS
        rw [hS]; rfl⟩ (hok n hn) (c.dstRoot capR i hi)
    rw [List.length_cons, rangeN_succ, rootStep m hW L (e + 2) p q n x y0 capR props i hi hn, Gen.rootLoop, hn]
    simp only [bind, Except.bind]
    have ea : argsB q n ⟨x.aI, 0, 64, x.capI⟩ ⟨y0.r0, 0, 64, capR⟩ i y0.mI y0.mP = argsB q n ⟨x.aI, 0, 64, x.capI⟩ ⟨y.r0, 0, 64, capR⟩ i (y.addr .indexMap) (y.addr .propMap) := by
      simp only [CLoc.addr, e1, e2, e3]
    rw [ea]
    rcases hm : Gen.build t n .indexMap .propMap st v0 with er | ⟨st1, w⟩
    · rw [hm] at hcall
      obtain ⟨e', he⟩ := hcall
      rw [he]
      exact ⟨e', rfl⟩
    · rw [hm] at hcall
      obtain ⟨h1, y1, D, tl, c1, b1, hD, hl, he⟩ := hcall
      simp only at hD he
      rw [← b1.r0] at hD
      obtain ⟨st2, hs2, c2⟩ := c1.setRoot hi w hD hl
      have ht1 := ht.built c b1
      obtain ⟨n1, n2, n3⟩ := c1.root_ne ht1
      have ht2 := ht1.write hD n1 n2 n3 ((D.set i w).map (.u16 tyU16) ++ tl)
      rw [b1.r0] at c2 ht2
      rw [he]
      simp only [bindR_ok, rangeNext, hs2]
      have hrec := ihv (i + 1) _ y1 st2 ht2 c2 (b1.r0.trans e1) (b1.mP.trans e2) (b1.mI.trans e3) (by omega)
        (fun k u hk => by
          have := hvs (k + 1) u hk
          rw [show i + 1 + k = i + (k + 1) by omega]
          exact this)
      have hks : KeepStructs q h (h1.set y.r0 (.arr ((D.set i w).map (.u16 tyU16) ++ tl))) := (b1.structs c).trans fun a t' fs _ hs => by
        rw [← b1.r0, set_other (Ne.symm (addr_ne hs hD (by intro h; cases h)))]; exact hs
      rcases hq : Gen.rootLoop t (i + 1) vs st2 with er | st'
      · rw [hq] at hrec
        exact hrec
      · rw [hq] at hrec
        obtain ⟨h', y', f1, f2, f3, f4⟩ := hrec
        exact ⟨h', y', f1, f2, f3, hks.trans f4⟩
/-- The body of the second loop in `Compact`. -/
def checkBody : Stmts := bodyOf (stmtAt 12 fn_Compact.body)

theorem checkStep (m : Machine) (_hW : 32 ≤ m.W) (L e : Nat) (p q : Nat) (x : Loc) (y : CLoc) (capR : Nat) (props : Option Sl) (i : Nat) (h : Heap) (s : Sl) (S : List Val) (v : UInt16)
    (hS : h[s.a]? = some (.arr S)) (hv : S[s.off + i]? = some (.u16 tyU16 v)) :
    rangeBody (ctx m L (e + 4)) L s (name! "i") (name! "v") checkBody i (envC p q x y capR props) h =
      if v = 0 then .error (.panic (.explicit (String.ofList ((m.sprintf [.str (textLine 837805954810114413162044491990656528995452231257400767306041362578309564581653866537762230136425), .int tyInt i]).map fun b => Char.ofNat b.toNat))))
      else .ok (.next (envC p q x y capR props), h) := by
  have hle := loadElem_some hS hv
  rw [rangeBody_apply]
  by_cases h0 : v = 0
  · subst h0
    simp [mem_exec, checkBody, fn_Compact, stmtAt, bodyOf, rangeVars, envC, hle]
  · have h0' : (v == 0) = false := by simp [h0]
    simp [mem_exec, checkBody, fn_Compact, stmtAt, bodyOf, rangeVars, envC, hle, h0, h0']

theorem checkLoop (m : Machine) (hW : 32 ≤ m.W) (L e : Nat) (p q : Nat) (x : Loc) (y : CLoc) (capR : Nat) (props : Option Sl) (h : Heap) (s : Sl) (S : List Val)
    (hS : h[s.a]? = some (.arr S)) (vs : List UInt16) : ∀ (i : Nat), (∀ (k : Nat) (v : UInt16), vs[k]? = some v → S[s.off + (i + k)]? = some (.u16 tyU16 v)) →
    if (0 : UInt16) ∈ vs then ∃ er, rangeN (rangeBody (ctx m L (e + 4)) L s (name! "i") (name! "v") checkBody) vs.length i (envC p q x y capR props) h = .error (.panic er)
    else rangeN (rangeBody (ctx m L (e + 4)) L s (name! "i") (name! "v") checkBody) vs.length i (envC p q x y capR props) h = .ok (.next (envC p q x y capR props), h) := by
  induction vs with
  | nil =>
    intro i _
    rw [if_neg (by simp)]
    rfl
  | cons v vs ih =>
    intro i hvs
    rw [List.length_cons, rangeN_succ, checkStep m hW L e p q x y capR props i h s S v hS (hvs 0 v rfl)]
    by_cases h0 : v = 0
    · subst h0
      rw [if_pos (by simp), if_pos rfl]
      exact ⟨_, rfl⟩
    · rw [if_neg h0]
      simp only [bindR_ok, rangeNext]
      have := ih (i + 1) (fun k u hk => by rw [show i + 1 + k = i + (k + 1) by omega]; exact hvs (k + 1) u hk)
      by_cases hm : (0 : UInt16) ∈ vs
      · rw [if_pos hm] at this
        rw [if_pos (List.mem_cons_of_mem _ hm)]
        exact this
      · rw [if_neg hm] at this
        rw [if_neg (by simp only [List.mem_cons, not_or]; exact ⟨Ne.symm h0, hm⟩)]
        exact this

theorem compactTail (m : Machine) (hW : 32 ≤ m.W) (L e : Nat) (p q : Nat) (x : Loc) (y0 y : CLoc) (capR : Nat) (props : Option Sl) (h : Heap) (st : Gen.CState) (c : CRep h q x y st) :
    if (0 : UInt16) ∈ st.indices then ∃ er, compactRest m L (e + 1) (.ok (.next (envC p q x y0 capR props), h)) = .error (.panic er)
    else compactRest m L (e + 1) (.ok (.next (envC p q x y0 capR props), h)) = .ok ([.struct tRaw (retFields y st)], h) := by
  have hloop := checkLoop m hW L e p q x y0 capR props h ⟨y.bI, 0, st.indices.length, y.capI⟩ _ c.inds st.indices 0 (by
    intro k v hk
    show _[0 + (0 + k)]? = _
    rw [Nat.zero_add, Nat.zero_add, List.getElem?_append_left (by rw [List.length_map]; exact lt_of_some hk), List.getElem?_map, hk]; rfl)
  have hret := load_some c.ret
  simp only [retFields] at hret
  by_cases hm : (0 : UInt16) ∈ st.indices
  · rw [if_pos hm] at *
    obtain ⟨er, hl⟩ := hloop
    refine ⟨er, ?_⟩
    simp only [checkBody, fn_Compact, stmtAt, bodyOf, envC] at hl
    simp [mem_exec, compactRest, fn_Compact, dropS, envC, loadStruct, hret, hl]
  · rw [if_neg hm] at *
    simp only [checkBody, fn_Compact, stmtAt, bodyOf, envC] at hloop
    simp [mem_exec, compactRest, fn_Compact, dropS, envC, loadStruct, hret, hloop, retFields]

end Textseg.GoMem
