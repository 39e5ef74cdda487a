import Verif.Proofs.MemUcd3
import Verif.Proofs.MemCompact3
/-!
# The code of `BuildRawPropertyTree` does what the model says: the parts
-/

namespace Textseg.GoMem
open Textseg.GoLang (TyId tyInt tyU8 Halt importName wrap)
set_option linter.unusedSimpArgs false

/-- The context of charprops/properties.go -/
def ctxP (m : Machine) (L d : Nat) : Ctx := mkCtx gentable m (R m L d) (name! "charprops") fileProperties.imports

def tGCB : TyId := ⟨name! "charprops", name! "GCBProperty"⟩
def tInCB : TyId := ⟨name! "charprops", name! "InCBProperty"⟩

section
variable (m : Machine) (L d : Nat) (h : Heap)
@[mem_exec] theorem ctxP_m : (ctxP m L d).m = m := rfl
@[mem_exec] theorem resolveP_string : resolve (ctxP m L d) (.name (name! "string")) h = .ok (.str, h) := by kernel_rfl
@[mem_exec] theorem resolveP_GCB : resolve (ctxP m L d) (.name (name! "GCBProperty")) h = .ok (.u8 tGCB, h) := by kernel_rfl
@[mem_exec] theorem resolveP_InCB : resolve (ctxP m L d) (.name (name! "InCBProperty")) h = .ok (.u8 tInCB, h) := by kernel_rfl
@[mem_exec] theorem globalP_GCBCR : globalOrPredeclared (ctxP m L (d + 1)) (name! "GCBCR") h = .ok (.u8 tGCB GCBCR, h) := by kernel_rfl
@[mem_exec] theorem globalP_GCBControl : globalOrPredeclared (ctxP m L (d + 1)) (name! "GCBControl") h = .ok (.u8 tGCB GCBControl, h) := by kernel_rfl
@[mem_exec] theorem globalP_GCBExtend : globalOrPredeclared (ctxP m L (d + 1)) (name! "GCBExtend") h = .ok (.u8 tGCB GCBExtend, h) := by kernel_rfl
@[mem_exec] theorem globalP_GCBL : globalOrPredeclared (ctxP m L (d + 1)) (name! "GCBL") h = .ok (.u8 tGCB GCBL, h) := by kernel_rfl
@[mem_exec] theorem globalP_GCBLF : globalOrPredeclared (ctxP m L (d + 1)) (name! "GCBLF") h = .ok (.u8 tGCB GCBLF, h) := by kernel_rfl
@[mem_exec] theorem globalP_GCBLV : globalOrPredeclared (ctxP m L (d + 1)) (name! "GCBLV") h = .ok (.u8 tGCB GCBLV, h) := by kernel_rfl
@[mem_exec] theorem globalP_GCBLVT : globalOrPredeclared (ctxP m L (d + 1)) (name! "GCBLVT") h = .ok (.u8 tGCB GCBLVT, h) := by kernel_rfl
@[mem_exec] theorem globalP_GCBPrepend : globalOrPredeclared (ctxP m L (d + 1)) (name! "GCBPrepend") h = .ok (.u8 tGCB GCBPrepend, h) := by kernel_rfl
@[mem_exec] theorem globalP_GCBRegionalIndicator : globalOrPredeclared (ctxP m L (d + 1)) (name! "GCBRegionalIndicator") h = .ok (.u8 tGCB GCBRegionalIndicator, h) := by kernel_rfl
@[mem_exec] theorem globalP_GCBSpacingMark : globalOrPredeclared (ctxP m L (d + 1)) (name! "GCBSpacingMark") h = .ok (.u8 tGCB GCBSpacingMark, h) := by kernel_rfl
@[mem_exec] theorem globalP_GCBT : globalOrPredeclared (ctxP m L (d + 1)) (name! "GCBT") h = .ok (.u8 tGCB GCBT, h) := by kernel_rfl
@[mem_exec] theorem globalP_GCBV : globalOrPredeclared (ctxP m L (d + 1)) (name! "GCBV") h = .ok (.u8 tGCB GCBV, h) := by kernel_rfl
@[mem_exec] theorem globalP_GCBZWJ : globalOrPredeclared (ctxP m L (d + 1)) (name! "GCBZWJ") h = .ok (.u8 tGCB GCBZWJ, h) := by kernel_rfl
@[mem_exec] theorem globalP_GCBExtendedPictographic : globalOrPredeclared (ctxP m L (d + 1)) (name! "GCBExtendedPictographic") h = .ok (.u8 tGCB GCBExtendedPictographic, h) := by kernel_rfl
@[mem_exec] theorem globalP_GCBNone : globalOrPredeclared (ctxP m L (d + 1)) (name! "GCBNone") h = .ok (.u8 tGCB GCBNone, h) := by kernel_rfl
@[mem_exec] theorem globalP_InCBConsonant : globalOrPredeclared (ctxP m L (d + 2)) (name! "InCBConsonant") h = .ok (.u8 tInCB InCBConsonant, h) := by kernel_rfl
@[mem_exec] theorem globalP_InCBExtend : globalOrPredeclared (ctxP m L (d + 2)) (name! "InCBExtend") h = .ok (.u8 tInCB InCBExtend, h) := by kernel_rfl
@[mem_exec] theorem globalP_InCBLinker : globalOrPredeclared (ctxP m L (d + 2)) (name! "InCBLinker") h = .ok (.u8 tInCB InCBLinker, h) := by kernel_rfl
@[mem_exec] theorem globalP_InCBNone : globalOrPredeclared (ctxP m L (d + 2)) (name! "InCBNone") h = .ok (.u8 tInCB InCBNone, h) := by kernel_rfl
@[mem_exec] theorem binary_str_eq (W : Nat) (a b : GoString) : binary W .eq (.str a) (.str b) h = .ok (.bool (decide (a = b)), h) := rfl
@[mem_exec] theorem binary_str_ne (W : Nat) (a b : GoString) : binary W .ne (.str a) (.str b) h = .ok (.bool (decide (a ≠ b)), h) := rfl

theorem execCases_skip (c : Ctx) (env : Env) (s : GoString) (n : Nat) (b : Stmts) (cs : Clauses) (hn : s ≠ textLine n) :
    execCases c L (.str s) (.case (.cons (.str n) .nil) b cs) env h = execCases c L (.str s) cs env h := by
  simp [mem_exec, hn]

theorem R_LookupGCB (args : List Val) : R m L (d + 1) (.func (name! "charprops") (name! "LookupGCBProperty") args) h =
    callWith (ctxP m L d) L fn_LookupGCB none args h := by kernel_rfl
theorem R_LookupEmoji (args : List Val) : R m L (d + 1) (.func (name! "charprops") (name! "LookupEmojiProperty") args) h =
    callWith (ctxP m L d) L fn_LookupEmoji none args h := by kernel_rfl
theorem R_LookupInCB (args : List Val) : R m L (d + 1) (.func (name! "charprops") (name! "LookupInCBProperty") args) h =
    callWith (ctxP m L d) L fn_LookupInCB none args h := by kernel_rfl

theorem LookupEmoji_eq (s : GoString) : R m L (d + 3) (.func (name! "charprops") (name! "LookupEmojiProperty") [.str s]) h =
    .ok ([.u8 tGCB (LookupEmojiProperty s)], h) := by
  rw [R_LookupEmoji]
  unfold LookupEmojiProperty
  rw [show str "Extended_Pictographic" = textLine (text! "Extended_Pictographic") from by decide +kernel]
  by_cases h1 : s = textLine (text! "Extended_Pictographic") <;>
    simp [mem_exec, fn_LookupEmoji, h1]
theorem LookupGCB_eq (s : GoString) : R m L (d + 3) (.func (name! "charprops") (name! "LookupGCBProperty") [.str s]) h =
    .ok ([.u8 tGCB (LookupGCBProperty s)], h) := by
  rw [R_LookupGCB]
  unfold LookupGCBProperty
  rw [show str "CR" = textLine (text! "CR") from by decide +kernel]
  rw [show str "Control" = textLine (text! "Control") from by decide +kernel]
  rw [show str "Extend" = textLine (text! "Extend") from by decide +kernel]
  rw [show str "L" = textLine (text! "L") from by decide +kernel]
  rw [show str "LF" = textLine (text! "LF") from by decide +kernel]
  rw [show str "LV" = textLine (text! "LV") from by decide +kernel]
  rw [show str "LVT" = textLine (text! "LVT") from by decide +kernel]
  rw [show str "Prepend" = textLine (text! "Prepend") from by decide +kernel]
  rw [show str "Regional_Indicator" = textLine (text! "Regional_Indicator") from by decide +kernel]
  rw [show str "SpacingMark" = textLine (text! "SpacingMark") from by decide +kernel]
  rw [show str "T" = textLine (text! "T") from by decide +kernel]
  rw [show str "V" = textLine (text! "V") from by decide +kernel]
  rw [show str "ZWJ" = textLine (text! "ZWJ") from by decide +kernel]
  by_cases h0 : s = textLine (text! "CR")
  · subst h0; kernel_rfl
  by_cases h1 : s = textLine (text! "Control")
  · subst h1; kernel_rfl
  by_cases h2 : s = textLine (text! "Extend")
  · subst h2; kernel_rfl
  by_cases h3 : s = textLine (text! "L")
  · subst h3; kernel_rfl
  by_cases h4 : s = textLine (text! "LF")
  · subst h4; kernel_rfl
  by_cases h5 : s = textLine (text! "LV")
  · subst h5; kernel_rfl
  by_cases h6 : s = textLine (text! "LVT")
  · subst h6; kernel_rfl
  by_cases h7 : s = textLine (text! "Prepend")
  · subst h7; kernel_rfl
  by_cases h8 : s = textLine (text! "Regional_Indicator")
  · subst h8; kernel_rfl
  by_cases h9 : s = textLine (text! "SpacingMark")
  · subst h9; kernel_rfl
  by_cases h10 : s = textLine (text! "T")
  · subst h10; kernel_rfl
  by_cases h11 : s = textLine (text! "V")
  · subst h11; kernel_rfl
  by_cases h12 : s = textLine (text! "ZWJ")
  · subst h12; kernel_rfl
  rw [if_neg h0, if_neg h1, if_neg h2, if_neg h3, if_neg h4, if_neg h5, if_neg h6, if_neg h7, if_neg h8, if_neg h9, if_neg h10, if_neg h11, if_neg h12]
  rw [fn_LookupGCB, callWith_func]
  simp only [bindParams_cons, bindParams_nil, resolveP_string, bindR_ok, ctxP_m, assignTo_str, declare, pure_apply]
  rw [execs_cons, exec_switch]
  simp only [eval_eq, evalMulti_ident, Env.get, if_true, identOf, bindR_ok, single_one]
  rw [execCases_skip (hn := h0), execCases_skip (hn := h1), execCases_skip (hn := h2), execCases_skip (hn := h3), execCases_skip (hn := h4), execCases_skip (hn := h5), execCases_skip (hn := h6), execCases_skip (hn := h7), execCases_skip (hn := h8), execCases_skip (hn := h9), execCases_skip (hn := h10), execCases_skip (hn := h11), execCases_skip (hn := h12)]
  kernel_rfl
theorem LookupInCB_eq (s : GoString) : R m L (d + 3) (.func (name! "charprops") (name! "LookupInCBProperty") [.str s]) h =
    .ok ([.u8 tInCB (LookupInCBProperty s)], h) := by
  rw [R_LookupInCB]
  unfold LookupInCBProperty
  rw [show str "Consonant" = textLine (text! "Consonant") from by decide +kernel]
  rw [show str "Extend" = textLine (text! "Extend") from by decide +kernel]
  rw [show str "Linker" = textLine (text! "Linker") from by decide +kernel]
  by_cases h0 : s = textLine (text! "Consonant")
  · subst h0; kernel_rfl
  by_cases h1 : s = textLine (text! "Extend")
  · subst h1; kernel_rfl
  by_cases h2 : s = textLine (text! "Linker")
  · subst h2; kernel_rfl
  simp [mem_exec, fn_LookupInCB, h0, h1, h2]
end

end Textseg.GoMem
