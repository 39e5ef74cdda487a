import Verif.Proofs.MemQuiet
import Verif.Proofs.MemMain4
/-!
# Building the table has no effects
-/

namespace Textseg.GoMem
open Textseg.GoLang (TyId tyInt tyU8 Halt Effect importName wrap)

theorem quiet_gentable : QuietProgram gentable where
  imports := by
    intro f hf
    simp only [gentable, List.mem_cons, List.not_mem_nil, or_false] at hf
    rcases hf with rfl | rfl | rfl | rfl | rfl | rfl
    all_goals first | (intro _; decide +kernel) | (intro h; exact absurd rfl h)
  methods := by
    intro f hf
    simp only [gentable, List.mem_cons, List.not_mem_nil, or_false] at hf
    rcases hf with rfl | rfl | rfl | rfl | rfl | rfl
    all_goals first | (intro h; exact absurd h (by decide +kernel)) | (intro _ t x; rfl)

theorem calm_heap0 : Calm heap0 := by
  intro o ho
  simp only [heap0, List.mem_cons, List.not_mem_nil, or_false] at ho
  rcases ho with rfl | rfl | rfl | rfl | rfl | rfl | rfl <;> exact trivial

/-- The memory after the table has been built has no effects in it. -/
theorem build_effects {m : Machine} {L d : Nat} {args vs : List Val} {h : Heap}
    (hb : R m L d (.func (name! "gentable") (name! "BuildRawPropertyTree") args) heap0 = .ok (vs, h)) : effectsOf h = [] :=
  ((quiet_run quiet_gentable m varsG L d _ (by show name! "gentable" ≠ name! "main"; decide)).calm _ _ _ hb calm_heap0).effects

end Textseg.GoMem
