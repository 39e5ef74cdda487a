import Verif.Proofs.MemTree
/-!
# The code of `Set`, `BitwiseOr` and `newTreeInProgress` does what the model says
-/
namespace Textseg.GoMem
open Textseg.GoLang (TyId tyInt tyU8 Halt importName wrap)
set_option linter.unusedSimpArgs false

theorem Set_spec (m : Machine) (hW : 32 ≤ m.W) (L d : Nat) (p : Nat) (r : Int32) (v : UInt8) (h : Heap) (x : Loc) (t : Gen.Tree)
    (ht : TreeAt h p x t) (hI : t.indices.length < 900000) (hP : t.rawProps.length < 2000000) :
    match t.Set r v with
    | .ok t' => ∃ h' x', R m L (d + 5) (.method (.ptr tTree p) (name! "Set") [.rune tyRune r, .u8 tyU8 v]) h = .ok ([], h') ∧ TreeAt h' p x' t' ∧ Moves p h x h' x'
    | .error _ => ∃ e, R m L (d + 5) (.method (.ptr tTree p) (name! "Set") [.rune tyRune r, .u8 tyU8 v]) h = .error (.panic e) := by
  rw [R_Set]
  have hs := ensure_spec m hW L d p r h x t ht hI hP
  unfold Gen.Tree.Set
  rcases he : Gen.ensureProps t r with er | ⟨t1, i⟩
  · rw [he] at hs
    simp only at hs
    refine ⟨er, ?_⟩
    simp [mem_exec, fn_Set, hs]
  · rw [he] at hs
    obtain ⟨h1, x1, hs, ht1, hm⟩ := hs
    rcases hg : t1.rawProps[i]? with _ | old
    · have hi : ¬ i < t1.rawProps.length := by rw [List.getElem?_eq_none_iff] at hg; omega
      rw [if_neg hi] at hs
      simp only [bind, Except.bind, goIndex, hg]
      refine ⟨.indexOutOfRange, ?_⟩
      simp [mem_exec, fn_Set, hs]
    · have hi := lt_of_some hg
      rw [if_pos hi] at hs
      have hel := ht1.getP hg
      have hst := fun v => storeElem_some (v := v) ht1.props (i := i) (by simp; omega)
      simp only [bind, Except.bind, goIndex, hg, Gen.goSet, if_pos hi]
      by_cases hv : v = 4
      · by_cases h0 : old = 0
        · rw [if_neg (by simp [h0])]
          refine ⟨_, _, ?_, ht1.setP (k := i) hi v, hm.trans (Moves.setP ht1 _)⟩
          simp [mem_exec, fn_Set, hs, hel, hst, hv, h0]
        · rw [if_pos ⟨hv, h0⟩]
          simp [mem_exec, fn_Set, hs, hel, hst, hv, h0]
      · rw [if_neg (by simp [hv])]
        refine ⟨_, _, ?_, ht1.setP (k := i) hi v, hm.trans (Moves.setP ht1 _)⟩
        have hv' : (v == 4) = false := by simp [hv]
        simp [mem_exec, fn_Set, hs, hel, hst, hv']

theorem BitwiseOr_spec (m : Machine) (hW : 32 ≤ m.W) (L d : Nat) (p : Nat) (r : Int32) (v : UInt8) (h : Heap) (x : Loc) (t : Gen.Tree)
    (ht : TreeAt h p x t) (hI : t.indices.length < 900000) (hP : t.rawProps.length < 2000000) :
    match t.BitwiseOr r v with
    | .ok t' => ∃ h' x', R m L (d + 5) (.method (.ptr tTree p) (name! "BitwiseOr") [.rune tyRune r, .u8 tyU8 v]) h = .ok ([], h') ∧ TreeAt h' p x' t' ∧ Moves p h x h' x'
    | .error _ => ∃ e, R m L (d + 5) (.method (.ptr tTree p) (name! "BitwiseOr") [.rune tyRune r, .u8 tyU8 v]) h = .error (.panic e) := by
  rw [R_BitwiseOr]
  have hs := ensure_spec m hW L d p r h x t ht hI hP
  unfold Gen.Tree.BitwiseOr
  rcases he : Gen.ensureProps t r with er | ⟨t1, i⟩
  · rw [he] at hs
    simp only at hs
    refine ⟨er, ?_⟩
    simp [mem_exec, fn_BitwiseOr, hs]
  · rw [he] at hs
    obtain ⟨h1, x1, hs, ht1, hm⟩ := hs
    rcases hg : t1.rawProps[i]? with _ | old
    · have hi : ¬ i < t1.rawProps.length := by rw [List.getElem?_eq_none_iff] at hg; omega
      rw [if_neg hi] at hs
      simp only [bind, Except.bind, goIndex, hg]
      refine ⟨.indexOutOfRange, ?_⟩
      simp [mem_exec, fn_BitwiseOr, hs]
    · have hi := lt_of_some hg
      rw [if_pos hi] at hs
      have hel := ht1.getP hg
      have hst := fun v => storeElem_some (v := v) ht1.props (i := i) (by simp; omega)
      simp only [bind, Except.bind, goIndex, hg, Gen.goSet, if_pos hi]
      refine ⟨_, _, ?_, ht1.setP (k := i) hi (old ||| v), hm.trans (Moves.setP ht1 _)⟩
      simp [mem_exec, fn_BitwiseOr, hs, hel, hst]


/-- What a composite literal does with its fields. -/
def litOf (c : Ctx) (t : TyId) (given : List (Nat × Val)) : M Val :=
  match find t.pkg t.name c.prog with
  | some (.struct fs, _) => do
    if given.all fun (x, _) => fs.any fun (y, _) => x = y then do
      let fs ← makeStruct c given fs
      pure (.struct t fs)
    else stuck
  | _ => stuck

section
variable (m : Machine) (L d : Nat) (h : Heap)
@[mem_exec] theorem compOf_tree (keyed : M (List (Nat × Val))) (args : M (List Val)) : compOf (ctx m L d) (.name (name! "treeInProgress")) keyed args h =
    bindR (keyed h) fun given h => litOf (ctx m L d) tTree given h := by kernel_rfl
@[mem_exec] theorem compOf_raw (keyed : M (List (Nat × Val))) (args : M (List Val)) : compOf (ctx m L d) (.name (name! "RawPropertyTree")) keyed args h =
    bindR (keyed h) fun given h => litOf (ctx m L d) tRaw given h := by kernel_rfl
@[mem_exec] theorem litOf_tree (s s' : Option Sl) : litOf (ctx m L d) tTree [(name! "rawProps", .slice noName tB s), (name! "indices", .slice noName tI s')] h =
    .ok (.struct tTree [(name! "rawProps", .slice noName tB s), (name! "indices", .slice noName tI s')], h) := by kernel_rfl
@[mem_exec] theorem litOf_raw (s s' : Option Sl) : litOf (ctx m L d) tRaw [(name! "Indices", .slice noName tI s), (name! "Properties", .slice noName tB s')] h =
    .ok (.struct tRaw [(name! "Indices", .slice noName tI s), (name! "Properties", .slice noName tB s')], h) := by kernel_rfl
end

/-- Where a new tree is. -/
def newLoc : Loc := ⟨7, 8, 128, 64, [], []⟩
/-- The memory after `newTreeInProgress`. -/
def newHeap : Heap :=
  heap0 ++ [.arr (List.replicate 128 (.u8 tyU8 0)), .arr (List.replicate 64 (.u16 tyU16 0)), .struct tTree (treeFields newLoc Gen.newTree)]

set_option maxRecDepth 2000 in
theorem newTree_at : TreeAt newHeap 9 newLoc Gen.newTree where
  obj := rfl
  props := rfl
  inds := rfl
  zero0 := rfl
  zero1 := rfl
  geP := by decide
  geI := by decide
  ne := by decide
  capP := by decide
  capI := by decide

theorem make_empty (m : Machine) (L d : Nat) (h : Heap) (t : Ty) (rest : Exprs) : evalMulti (ctx m L d) [] (.call (.ident (name! "make")) (.cons (.ty t) rest)) h =
    bindR (resolve (ctx m L d) t h) fun t h => bindR (evalArgs (ctx m L d) [] rest h) fun vs h => bindR (makeOf t vs h) fun v h => .ok ([v], h) :=
  evalMulti_make _ _ h t rest rfl (find_make m L d)

/-- `newTreeInProgress` in any memory. -/
theorem newTree_any (m : Machine) (hW : 32 ≤ m.W) (L d : Nat) (h : Heap) :
    R m L (d + 3) (.func (name! "gentable") (name! "newTreeInProgress") []) h = .ok ([.ptr tTree (h.length + 2)],
      h ++ [.arr (List.replicate 128 (.u8 tyU8 0)), .arr (List.replicate 64 (.u16 tyU16 0)),
        .struct tTree (treeFields ⟨h.length, h.length + 1, 128, 64, [], []⟩ Gen.newTree)]) := by
  rw [R_newTree]
  have w1 := wrap_small m.W hW 128 (by omega) (by omega)
  have w2 := wrap_small m.W hW 64 (by omega) (by omega)
  simp [mem_exec, fn_newTree, make_empty, makeOf, w1, w2, treeFields, -List.reduceReplicate]
  exact ⟨by rfl, by rfl⟩

theorem newTree_spec (m : Machine) (hW : 32 ≤ m.W) (L d : Nat) :
    R m L (d + 3) (.func (name! "gentable") (name! "newTreeInProgress") []) heap0 = .ok ([.ptr tTree 9], newHeap) :=
  newTree_any m hW L d heap0

theorem newTree_at_any (h : Heap) (h0 : h[0]? = some (.arr (List.replicate 64 (.u16 tyU16 0))))
    (h1 : h[1]? = some (.arr (List.replicate 64 (.u8 tyU8 0)))) (hl : 7 ≤ h.length) :
    TreeAt (h ++ [.arr (List.replicate 128 (.u8 tyU8 0)), .arr (List.replicate 64 (.u16 tyU16 0)),
        .struct tTree (treeFields ⟨h.length, h.length + 1, 128, 64, [], []⟩ Gen.newTree)]) (h.length + 2)
      ⟨h.length, h.length + 1, 128, 64, [], []⟩ Gen.newTree where
  obj := by rw [List.getElem?_append_right (by omega), Nat.add_sub_cancel_left]; rfl
  props := by rw [List.getElem?_append_right (Nat.le_refl _), Nat.sub_self]; rfl
  inds := by rw [List.getElem?_append_right (by show _ ≤ h.length + 1; omega), Nat.add_sub_cancel_left]; rfl
  zero0 := by rw [List.getElem?_append_left (by omega), h0]
  zero1 := by rw [List.getElem?_append_left (by omega), h1]
  geP := hl
  geI := by show 7 ≤ h.length + 1; omega
  ne := by show h.length ≠ h.length + 1; omega
  capP := newTree_at.capP
  capI := newTree_at.capI

end Textseg.GoMem
