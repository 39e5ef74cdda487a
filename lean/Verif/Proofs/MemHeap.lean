import Verif.Proofs.MemGlobals
import Verif.Model.GenTable
/-!
# The memory of the generator: reading, writing, appending
-/

namespace Textseg.GoMem
open Textseg.GoLang (TyId tyInt tyU8 Halt importName wrap)

theorem load_some {h : Heap} {a : Nat} {o : Obj} (ha : h[a]? = some o) : load a h = .ok (o, h) := by
  simp only [load, ha]

theorem lt_of_some {α : Type} {l : List α} {a : Nat} {o : α} (ha : l[a]? = some o) : a < l.length := by
  rcases Nat.lt_or_ge a l.length with h | h
  · exact h
  · rw [List.getElem?_eq_none h] at ha; cases ha

theorem loadElem_some {h : Heap} {a i : Nat} {l : List Val} {v : Val} (ha : h[a]? = some (.arr l)) (hi : l[i]? = some v) :
    loadElem a i h = .ok (v, h) := by
  simp only [loadElem, bind_apply, load_some ha, bindR_ok, hi]; rfl

theorem storeElem_some {h : Heap} {a i : Nat} {l : List Val} {v : Val} (ha : h[a]? = some (.arr l)) (hi : i < l.length) :
    storeElem a i v h = .ok ((), h.set a (.arr (l.set i v))) := by
  simp only [storeElem, bind_apply, load_some ha, bindR_ok, if_pos hi]; rfl

theorem readSlice_some {h : Heap} {s : Sl} {l : List Val} (ha : h[s.a]? = some (.arr l)) :
    readSlice (some s) h = .ok ((l.drop s.off).take s.len, h) := by
  simp only [readSlice, bind_apply, load_some ha, bindR_ok]; rfl

theorem set_self {h : Heap} {a : Nat} {o o' : Obj} (ha : h[a]? = some o) : (h.set a o')[a]? = some o' := by
  rw [List.getElem?_set_self (lt_of_some ha)]

theorem set_other {h : Heap} {a b : Nat} {o : Obj} (hab : a ≠ b) : (h.set a o)[b]? = h[b]? := List.getElem?_set_ne hab

theorem push_old {h : Heap} {b : Nat} {o : Obj} (hb : b < h.length) : (h ++ [o])[b]? = h[b]? := List.getElem?_append_left hb

theorem push_new {h : Heap} {o : Obj} : (h ++ [o])[h.length]? = some o := by
  rw [List.getElem?_append_right (Nat.le_refl _), Nat.sub_self]; rfl

/-- `append(s, xs...)`, where `s` is a slice from the beginning of an array. -/
theorem appendSlice_spec (m : Machine) (e : GTy) (z : Val) (hz : ∀ h, zeroValue e h = .ok (z, h)) {h : Heap} {a cap : Nat} {l tl xs : List Val}
    (ha : h[a]? = some (.arr (l ++ tl))) (_hcap : l.length ≤ cap) (hx : xs ≠ []) :
    ∃ h' a' cap' tl', appendSlice m e (some ⟨a, 0, l.length, cap⟩) xs h = .ok (some ⟨a', 0, l.length + xs.length, cap'⟩, h') ∧
      h'[a']? = some (.arr (l ++ xs ++ tl')) ∧ l.length + xs.length ≤ cap' ∧ h.length ≤ h'.length ∧
      (∀ b, b < h.length → b ≠ a' → h'[b]? = h[b]?) ∧
      ((l.length + xs.length ≤ cap ∧ a' = a ∧ cap' = cap) ∨ (¬ l.length + xs.length ≤ cap ∧ a' = h.length)) := by
  have he : xs.isEmpty = false := by cases xs with | nil => exact absurd rfl hx | cons x xs => rfl
  by_cases hn : l.length + xs.length ≤ cap
  · refine ⟨h.set a (.arr (l ++ xs ++ (l ++ tl).drop (0 + (l.length + xs.length)))), a, cap, _, ?_, set_self ha, hn, ?_, ?_, .inl ⟨hn, rfl, rfl⟩⟩
    · simp only [appendSlice, he, Bool.false_eq_true, if_false, Option.getD_some]
      rw [if_pos hn, bind_apply, load_some ha]
      simp only [bindR_ok, Nat.zero_add, List.take_left']
      rfl
    · rw [List.length_set]; exact Nat.le_refl _
    · intro b _ hb; exact set_other (Ne.symm hb)
  · refine ⟨h ++ [.arr (l ++ xs ++ List.replicate (max (l.length + xs.length) (m.grow cap (l.length + xs.length)) - (l.length + xs.length)) z)],
      h.length, max (l.length + xs.length) (m.grow cap (l.length + xs.length)), _, ?_, push_new, Nat.le_max_left _ _, ?_, ?_, .inr ⟨hn, rfl⟩⟩
    · simp only [appendSlice, he, Bool.false_eq_true, if_false, Option.getD_some]
      rw [if_neg hn, bind_apply, readSlice_some ha]
      simp only [bindR_ok, List.drop_zero, List.take_left', bind_apply, hz, alloc_apply]
      rfl
    · simp
    · intro b hb _; exact push_old hb

/-- Where the tree is. -/
structure Loc where
  aP : Nat
  aI : Nat
  capP : Nat
  capI : Nat
  tP : List Val
  tI : List Val

/-- The fields of a `treeInProgress`. -/
def treeFields (x : Loc) (t : Gen.Tree) : List (Nat × Val) :=
  [(name! "rawProps", .slice noName tB (some ⟨x.aP, 0, t.rawProps.length, x.capP⟩)),
    (name! "indices", .slice noName tI (some ⟨x.aI, 0, t.indices.length, x.capI⟩))]

/-- At address `p` is a `treeInProgress` with the contents `t`. -/
structure TreeAt (h : Heap) (p : Nat) (x : Loc) (t : Gen.Tree) : Prop where
  obj : h[p]? = some (.struct tTree (treeFields x t))
  props : h[x.aP]? = some (.arr (t.rawProps.map (.u8 tyU8) ++ x.tP))
  inds : h[x.aI]? = some (.arr (t.indices.map (.u16 tyU16) ++ x.tI))
  zero0 : h[0]? = some (.arr (List.replicate 64 (.u16 tyU16 0)))
  zero1 : h[1]? = some (.arr (List.replicate 64 (.u8 tyU8 0)))
  geP : 7 ≤ x.aP
  geI : 7 ≤ x.aI
  ne : x.aP ≠ x.aI
  capP : t.rawProps.length ≤ x.capP
  capI : t.indices.length ≤ x.capI

end Textseg.GoMem
