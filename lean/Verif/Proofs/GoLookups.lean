import Verif.Proofs.GoGlobals
/-!
# Running the code of properties.go and state.go
-/

namespace Textseg.GoLang
open Textseg

set_option linter.unusedSimpArgs false

variable (W L d : Nat)

/-- A result of the model as a result of running the code. -/
def lift {α : Type} (f : α → List Val) : Go α → R (List Val)
  | .ok a => .ok (f a)
  | .error p => .error (.panic p)

@[go_exec] theorem lift_ok {α : Type} (f : α → List Val) (a : α) : lift f (.ok a) = .ok (f a) := rfl
@[go_exec] theorem lift_error {α : Type} (f : α → List Val) (p : GoPanic) : lift f (.error p : Go α) = .error (.panic p) := rfl
@[go_exec] theorem lift_ite {α : Type} (f : α → List Val) (c : Prop) [Decidable c] (x y : Go α) :
    lift f (if c then x else y) = if c then lift f x else lift f y := by split <;> rfl


@[go_exec] theorem run_IsAnyControl (x : UInt8) : run library W L (d + 2) (.method (.u8 tGCB x) (name! "IsAnyControl") []) =
    .ok [.bool (isAnyControl x)] := by
  show callWith (ctxP W L (d + 1)) L fn_GCBProperty_IsAnyControl (some (.u8 tGCB x)) [] = _
  simp only [fn_GCBProperty_IsAnyControl, go_exec, Nat.reduceEqDiff, Nat.reduceAdd, Nat.reduceSub, reduceCtorEq, ite_ok]
  unfold isAnyControl
  cases x == GCBLF <;> cases x == GCBCR <;> cases x == GCBControl <;> rfl

@[go_exec] theorem run_GCBProperty (x : UInt8) : run library W L (d + 1) (.method (.u8 tCP x) (name! "GCBProperty") []) =
    .ok [.u8 tGCB (gcbProperty x)] := by kernel_rfl
@[go_exec] theorem run_InCBProperty (x : UInt8) : run library W L (d + 1) (.method (.u8 tCP x) (name! "InCBProperty") []) =
    .ok [.u8 tInCB (inCBProperty x)] := by kernel_rfl

@[go_exec] theorem run_gb9cActive (hW : 32 ≤ W) (s : Int) : run library W L (d + 2) (.method (.int tState s) (name! "gb9cActive") []) =
    .ok [.bool (gb9cActive s)] := by
  show callWith (ctxM W L (d + 1)) L fn_gb9cActive (some (.int tState s)) [] = _
  simp only [fn_gb9cActive, go_exec, Nat.reduceEqDiff, Nat.reduceAdd, Nat.reduceSub, reduceCtorEq, ctxM_StateGB9cLinker L d hW]
  rfl
@[go_exec] theorem run_gb11Active (hW : 32 ≤ W) (s : Int) : run library W L (d + 2) (.method (.int tState s) (name! "gb11Active") []) =
    .ok [.bool (gb11Active s)] := by
  show callWith (ctxM W L (d + 1)) L fn_gb11Active (some (.int tState s)) [] = _
  simp only [fn_gb11Active, go_exec, Nat.reduceEqDiff, Nat.reduceAdd, Nat.reduceSub, reduceCtorEq, ctxM_StateGB11AfterZWJ L d hW]
  rfl
@[go_exec] theorem run_gb13Active (hW : 32 ≤ W) (s : Int) : run library W L (d + 2) (.method (.int tState s) (name! "gb13Active") []) =
    .ok [.bool (gb13Active s)] := by
  show callWith (ctxM W L (d + 1)) L fn_gb13Active (some (.int tState s)) [] = _
  simp only [fn_gb13Active, go_exec, Nat.reduceEqDiff, Nat.reduceAdd, Nat.reduceSub, reduceCtorEq, ctxM_StateAwaitEmojiFlag L d hW]
  rfl

theorem run_nextState (hW : 32 ≤ W) (s : Int) (x : UInt8) :
    run library W L (d + 2) (.method (.int tState s) (name! "nextState") [.u8 tCP x]) =
    lift (fun s => [.int tState s]) (nextState s x) := by
  show callWith (ctxM W L (d + 1)) L fn_nextState (some (.int tState s)) [.u8 tCP x] = _
  simp only [fn_nextState, go_exec, Nat.reduceEqDiff, Nat.reduceAdd, Nat.reduceSub, reduceCtorEq, ctxM_StateBase L d hW, ctxM_StateAwaitEmojiFlag L d hW, ctxM_StateGB11BeforeZWJ L d hW,
    ctxM_StateGB11AfterZWJ L d hW, ctxM_StateGB9cConsonant L d hW, ctxM_StateGB9cLinker L d hW]
  simp only [nextState, go_exec]

theorem run_Begin (hW : 32 ≤ W) (x : UInt8) :
    run library W L (d + 3) (.func (name! "machine") (name! "Begin") [.u8 tCP x]) =
    lift (fun s => [.int tState s]) (Begin x) := by
  show callWith (ctxM W L (d + 2)) L fn_Begin none [.u8 tCP x] = _
  have hi : (ctxM W L (d + 2)).imported (name! "StateBase") = false := by kernel_rfl
  simp only [fn_Begin, go_exec, Nat.reduceEqDiff, reduceCtorEq, ctxM_StateBase L (d + 1) hW, hi, Bool.false_eq_true,
    run_nextState W L d hW, Begin]
  cases nextState StateBase x <;> rfl

theorem ok_ite (c : Prop) [Decidable c] (a b : Bool) (v : Val) :
    (Except.ok [.bool (if c then a else b), v] : R (List Val)) = if c then .ok [.bool a, v] else .ok [.bool b, v] := by split <;> rfl

theorem run_Transition (hW : 32 ≤ W) (s : Int) (x y : UInt8) :
    run library W L (d + 3) (.method (.int tState s) (name! "Transition") [.u8 tCP x, .u8 tCP y]) =
    lift (fun r => [.bool r.1, .int tState r.2]) (Transition s x y) := by
  show callWith (ctxM W L (d + 2)) L fn_Transition (some (.int tState s)) [.u8 tCP x, .u8 tCP y] = _
  simp only [Transition]
  simp only [fn_Transition, go_exec, Nat.reduceEqDiff, Nat.reduceAdd, Nat.reduceSub, reduceCtorEq,
    run_nextState W L d hW, run_gb9cActive W L d hW, run_gb11Active W L d hW, run_gb13Active W L d hW]
  cases nextState s y with
  | error p => rfl
  | ok n =>
    simp only [go_exec, Nat.reduceEqDiff, Nat.reduceAdd, Nat.reduceSub, reduceCtorEq,
      run_nextState W L d hW, run_gb9cActive W L d hW, run_gb11Active W L d hW, run_gb13Active W L d hW]
    show _ = (Except.ok [Val.bool (transitionSplit s x y), Val.int tState n] : R (List Val))
    simp only [transitionSplit, ok_ite]
    cases gb9cActive s <;> cases gb11Active s <;> cases gb13Active s <;>
      simp only [Bool.true_and, Bool.false_and, Bool.false_eq_true, if_true, if_false]

end Textseg.GoLang
