import Verif.GoLang.Program
import Verif.GoLang.Attr
import Verif.Model.Scan
/-!
# Executing the syntax trees of the library: lemmas for `simp`
-/

namespace Textseg.GoLang
open Textseg

abbrev tCP : TyId := ⟨name! "charprops", name! "CharProperties"⟩
abbrev tGCB : TyId := ⟨name! "charprops", name! "GCBProperty"⟩
abbrev tInCB : TyId := ⟨name! "charprops", name! "InCBProperty"⟩
abbrev tState : TyId := ⟨name! "machine", name! "State"⟩

section
variable {α β : Type}
@[go_exec] theorem bind_ok (a : α) (f : α → R β) : (Except.ok a >>= f) = f a := rfl
@[go_exec] theorem bind_error (e : Halt) (f : α → R β) : (Except.error e >>= f) = .error e := rfl
@[go_exec] theorem bind_ite {c : Prop} [Decidable c] (x y : R α) (f : α → R β) :
    ((if c then x else y) >>= f) = if c then x >>= f else y >>= f := by split <;> rfl
@[go_exec] theorem single_one (v : α) : single [v] = .ok v := rfl
@[go_exec] theorem ite_ok (b : Bool) (x y : Bool) :
    (if b = true then (.ok x : R Bool) else .ok y) = .ok (bif b then x else y) := by cases b <;> rfl
@[go_exec] theorem cond_true_or (b c : Bool) : (bif b then true else c) = (b || c) := rfl
end

section
variable (c : Ctx) (env : Env) (L : Nat)

@[go_exec] theorem evalMulti_num (n : Nat) : evalMulti c env (.num n) = .ok [.const n] := rfl
@[go_exec] theorem evalMulti_str (n : Nat) : evalMulti c env (.str n) = .ok [.str (textLine n)] := rfl
@[go_exec] theorem evalMulti_ident (x : Nat) : evalMulti c env (.ident x) =
    match env.get x with
    | some v => .ok [v]
    | none => (globalOrPredeclared c x >>= fun v => .ok [v]) := rfl
@[go_exec] theorem evalMulti_bin (op : BinOp) (a b : Expr) : evalMulti c env (.bin op a b) =
    (operator c.W op (eval c env a) (eval c env b) >>= fun r => .ok [r]) := rfl
@[go_exec] theorem evalMulti_sel (p x : Nat) : evalMulti c env (.sel (.ident p) x) =
    match env.get p with
    | some _ => stuck
    | none => if c.imported p = true then (c.global p x >>= fun v => .ok [v]) else stuck := by
  simp only [evalMulti]
  cases env.get p <;> simp
@[go_exec] theorem evalMulti_callName (x : Nat) (args : Exprs) : evalMulti c env (.call (.ident x) args) =
    (evalArgs c env args >>= fun vs => if env.get x = none then callName c x vs else stuck) := by
  simp only [evalMulti]
@[go_exec] theorem evalMulti_callSel (p x : Nat) (args : Exprs) : evalMulti c env (.call (.sel (.ident p) x) args) =
    match env.get p with
    | some v => (evalArgs c env args >>= fun vs => c.callMethod v x vs)
    | none => if c.imported p = true then (evalArgs c env args >>= fun vs => callQualified c p x vs)
        else (globalOrPredeclared c p >>= fun v => evalArgs c env args >>= fun vs => c.callMethod v x vs) := by
  simp only [evalMulti]
  have h : env.get p = none ∨ ∃ v, env.get p = some v := by
    cases env.get p with
    | none => exact Or.inl rfl
    | some v => exact Or.inr ⟨v, rfl⟩
  rcases h with h | ⟨v, h⟩
  · have hi : c.imported p = true ∨ c.imported p = false := by cases c.imported p <;> simp
    rcases hi with hi | hi <;> simp [single_one, bind_ok, h, hi]
  · simp [bind_ok, single_one, h]
@[go_exec] theorem evalMulti_index (e i : Expr) : evalMulti c env (.index e i) =
    (eval c env e >>= fun v => eval c env i >>= fun i => indexValue i >>= fun i => indexOf v i >>= fun r => .ok [r]) := by
  simp only [evalMulti, eval, bind_assoc]
@[go_exec] theorem evalMulti_sliceFrom (e i : Expr) : evalMulti c env (.sliceFrom e i) =
    (eval c env e >>= fun v => eval c env i >>= fun i => indexValue i >>= fun i => sliceFromOf v i >>= fun r => .ok [r]) := by
  simp only [evalMulti, eval, bind_assoc]
@[go_exec] theorem evalMulti_sliceTo (e i : Expr) : evalMulti c env (.sliceTo e i) =
    (eval c env e >>= fun v => eval c env i >>= fun i => indexValue i >>= fun i => sliceToOf v i >>= fun r => .ok [r]) := by
  simp only [evalMulti, eval, bind_assoc]
@[go_exec] theorem eval_eq (e : Expr) : eval c env e = (evalMulti c env e >>= fun vs => single vs) := rfl
@[go_exec] theorem evalArgs_nil : evalArgs c env .nil = .ok [] := rfl
@[go_exec] theorem evalArgs_cons (e : Expr) (es : Exprs) : evalArgs c env (.cons e es) =
    (eval c env e >>= fun v => evalArgs c env es >>= fun vs => .ok (v :: vs)) := by
  simp only [evalArgs, eval, bind_assoc]
@[go_exec] theorem evalRight_one (e : Expr) : evalRight c env (.cons e .nil) = evalMulti c env e := rfl
@[go_exec] theorem evalRight_two (e e' : Expr) (es : Exprs) : evalRight c env (.cons e (.cons e' es)) =
    evalArgs c env (.cons e (.cons e' es)) := rfl

@[go_exec] theorem operator_land (W : Nat) (x y : Bool) : operator W .land (.ok (.bool x)) (.ok (.bool y)) = .ok (.bool (x && y)) := by
  cases x <;> rfl
@[go_exec] theorem operator_lor (W : Nat) (x y : Bool) : operator W .lor (.ok (.bool x)) (.ok (.bool y)) = .ok (.bool (x || y)) := by
  cases x <;> rfl
theorem operator_other (W : Nat) (op : BinOp) (v w : Val) (h1 : op ≠ .land) (h2 : op ≠ .lor) :
    operator W op (.ok v) (.ok w) = binary W op v w := by
  cases op <;> first | rfl | contradiction
@[go_exec] theorem operator_eq (W : Nat) (v w : Val) : operator W .eq (.ok v) (.ok w) = binary W .eq v w := rfl
@[go_exec] theorem operator_ne (W : Nat) (v w : Val) : operator W .ne (.ok v) (.ok w) = binary W .ne v w := rfl
@[go_exec] theorem operator_lt (W : Nat) (v w : Val) : operator W .lt (.ok v) (.ok w) = binary W .lt v w := rfl
@[go_exec] theorem operator_gt (W : Nat) (v w : Val) : operator W .gt (.ok v) (.ok w) = binary W .gt v w := rfl
@[go_exec] theorem operator_add (W : Nat) (v w : Val) : operator W .add (.ok v) (.ok w) = binary W .add v w := rfl
@[go_exec] theorem operator_or (W : Nat) (v w : Val) : operator W .or (.ok v) (.ok w) = binary W .or v w := rfl
@[go_exec] theorem operator_and (W : Nat) (v w : Val) : operator W .and (.ok v) (.ok w) = binary W .and v w := rfl
@[go_exec] theorem operator_shl (W : Nat) (v w : Val) : operator W .shl (.ok v) (.ok w) = binary W .shl v w := rfl

@[go_exec] theorem binary_eq_u8 (W : Nat) (t : TyId) (a b : UInt8) : binary W .eq (.u8 t a) (.u8 t b) = .ok (.bool (a == b)) := by
  simp [binary, u8Op]
@[go_exec] theorem binary_ne_u8 (W : Nat) (t : TyId) (a b : UInt8) : binary W .ne (.u8 t a) (.u8 t b) = .ok (.bool (a != b)) := by
  simp [binary, u8Op]
@[go_exec] theorem binary_or_u8 (W : Nat) (t : TyId) (a b : UInt8) : binary W .or (.u8 t a) (.u8 t b) = .ok (.u8 t (a ||| b)) := by
  simp [binary, u8Op]
@[go_exec] theorem binary_and_const (W : Nat) (t : TyId) (a : UInt8) (n : Nat) (h : n < 256) :
    binary W .and (.u8 t a) (.const n) = .ok (.u8 t (a &&& UInt8.ofNat n)) := by
  have h1 : (0 : Int) ≤ n ∧ (n : Int) < 256 := by omega
  simp [binary, u8Op, h1]
@[go_exec] theorem binary_eq_const (W : Nat) (t : TyId) (a : UInt8) (n : Nat) (h : n < 256) :
    binary W .eq (.u8 t a) (.const n) = .ok (.bool (a == UInt8.ofNat n)) := by
  have h1 : (0 : Int) ≤ n ∧ (n : Int) < 256 := by omega
  simp [binary, u8Op, h1]
@[go_exec] theorem binary_ne_const (W : Nat) (t : TyId) (a : UInt8) (n : Nat) (h : n < 256) :
    binary W .ne (.u8 t a) (.const n) = .ok (.bool (a != UInt8.ofNat n)) := by
  have h1 : (0 : Int) ≤ n ∧ (n : Int) < 256 := by omega
  simp [binary, u8Op, h1]
@[go_exec] theorem binary_lt_const (W : Nat) (t : TyId) (a : UInt8) (n : Nat) (h : n < 256) :
    binary W .lt (.u8 t a) (.const n) = .ok (.bool (decide (a < UInt8.ofNat n))) := by
  have h1 : (0 : Int) ≤ n ∧ (n : Int) < 256 := by omega
  simp [binary, u8Op, h1]
@[go_exec] theorem binary_eq_int (W : Nat) (t : TyId) (a b : Int) : binary W .eq (.int t a) (.int t b) = .ok (.bool (a == b)) := by
  simp [binary, intOp]
@[go_exec] theorem binary_eq_str (W : Nat) (a b : GoString) : binary W .eq (.str a) (.str b) = .ok (.bool (decide (a = b))) := by
  simp [binary]
@[go_exec] theorem binary_add_str (W : Nat) (a b : GoString) : binary W .add (.str a) (.str b) = .ok (.str (a ++ b)) := by
  simp [binary]
@[go_exec] theorem binary_eq_bool (W : Nat) (a b : Bool) : binary W .eq (.bool a) (.bool b) = .ok (.bool (a == b)) := by
  simp [binary]
@[go_exec] theorem boolValue_bool (b : Bool) : boolValue (.bool b) = .ok b := rfl

@[go_exec] theorem execs_nil : execs c L .nil env = .ok (.next env) := rfl
theorem execs_cons (s : Stmt) (ss : Stmts) : execs c L (.cons s ss) env =
    (exec c L s env >>= fun o =>
      match o with
      | .ret vs => .ok (.ret vs)
      | .next env => execs c L ss env) := rfl
/-- What follows a statement. -/
def andThen (c : Ctx) (L : Nat) (ss : Stmts) : Out → R Out
  | .ret vs => .ok (.ret vs)
  | .next env => execs c L ss env
@[go_exec] theorem execs_cons' (s : Stmt) (ss : Stmts) : execs c L (.cons s ss) env =
    (exec c L s env >>= andThen c L ss) := rfl
@[go_exec] theorem andThen_ret (ss : Stmts) (vs : List Val) : andThen c L ss (.ret vs) = .ok (.ret vs) := rfl
@[go_exec] theorem andThen_next (ss : Stmts) : andThen c L ss (.next env) = execs c L ss env := rfl
@[go_exec] theorem exec_define (xs : List Nat) (es : Exprs) : exec c L (.define xs es) env =
    (evalRight c env es >>= fun vs => defineAll c.W env xs vs >>= fun env => .ok (.next env)) := rfl
@[go_exec] theorem exec_assign (x : Nat) (e : Expr) : exec c L (.assign x e) env =
    (eval c env e >>= fun v => assignVar c.W env x v >>= fun env => .ok (.next env)) := rfl
@[go_exec] theorem exec_expr (e : Expr) : exec c L (.expr e) env = (evalMulti c env e >>= fun _ => .ok (.next env)) := rfl
@[go_exec] theorem exec_ret (es : Exprs) : exec c L (.ret es) env = (evalRight c env es >>= fun vs => .ok (.ret vs)) := rfl
@[go_exec] theorem exec_if (e : Expr) (thn els : Stmts) : exec c L (.ifThen e thn els) env =
    (eval c env e >>= fun v => boolValue v >>= fun b =>
      if b then execs c L thn env >>= fun o => .ok (leave env.length o)
      else execs c L els env >>= fun o => .ok (leave env.length o)) := rfl
@[go_exec] theorem exec_switch (e : Expr) (cs : Clauses) : exec c L (.switch e cs) env =
    (eval c env e >>= fun v => execCases c L v cs env >>= fun r =>
      match r with
      | some o => .ok (leave env.length o)
      | none => execDefault c L cs env >>= fun o => .ok (leave env.length o)) := rfl
@[go_exec] theorem exec_switchTrue (cs : Clauses) : exec c L (.switchTrue cs) env =
    (execCases c L (.bool true) cs env >>= fun r =>
      match r with
      | some o => .ok (leave env.length o)
      | none => execDefault c L cs env >>= fun o => .ok (leave env.length o)) := rfl
@[go_exec] theorem execCases_nil (v : Val) : execCases c L v .nil env = .ok none := rfl
@[go_exec] theorem execCases_dflt (v : Val) (b : Stmts) (cs : Clauses) : execCases c L v (.dflt b cs) env = execCases c L v cs env := rfl
@[go_exec] theorem execCases_case (v : Val) (es : Exprs) (b : Stmts) (cs : Clauses) : execCases c L v (.case es b cs) env =
    (matches_ c env v es >>= fun m =>
      if m then execs c L b env >>= fun o => .ok (some o) else execCases c L v cs env) := rfl
@[go_exec] theorem execDefault_nil : execDefault c L .nil env = .ok (.next env) := rfl
@[go_exec] theorem execDefault_dflt (b : Stmts) (cs : Clauses) : execDefault c L (.dflt b cs) env = execs c L b env := rfl
@[go_exec] theorem execDefault_case (es : Exprs) (b : Stmts) (cs : Clauses) :
    execDefault c L (.case es b cs) env = execDefault c L cs env := rfl
@[go_exec] theorem matches_nil (v : Val) : matches_ c env v .nil = .ok false := rfl
@[go_exec] theorem matches_cons (v : Val) (e : Expr) (es : Exprs) : matches_ c env v (.cons e es) =
    (eval c env e >>= fun w => binary c.W .eq v w >>= fun r => boolValue r >>= fun b =>
      if b then .ok true else matches_ c env v es) := rfl
@[go_exec] theorem leave_ret (n : Nat) (vs : List Val) : leave n (.ret vs) = .ret vs := rfl
end

section
variable (W : Nat) (self : Ref → R (List Val)) (pkg : Nat) (imports : List Nat)
@[go_exec] theorem mkCtx_W : (mkCtx library W self pkg imports).W = W := rfl
@[go_exec] theorem mkCtx_global (p x : Nat) : (mkCtx library W self pkg imports).global p x =
    (self (.global p x) >>= fun vs => single vs) := rfl
@[go_exec] theorem mkCtx_callFunc (p x : Nat) (args : List Val) : (mkCtx library W self pkg imports).callFunc p x args =
    self (.func p x args) := rfl
@[go_exec] theorem mkCtx_callMethod (v : Val) (x : Nat) (args : List Val) : (mkCtx library W self pkg imports).callMethod v x args =
    self (.method v x args) := rfl
end

section
variable (W : Nat) (t u : TyId)
@[go_exec] theorem assignTo_int (i : Int) : assignTo W (.int, t) (.int t i) = .ok (.int t i) := by simp [assignTo]
@[go_exec] theorem assignTo_u8 (x : UInt8) : assignTo W (.u8, t) (.u8 t x) = .ok (.u8 t x) := by simp [assignTo]
@[go_exec] theorem assignTo_bool (b : Bool) : assignTo W (.bool, t) (.bool b) = .ok (.bool b) := rfl
@[go_exec] theorem assignTo_str (s : GoString) : assignTo W (.str, t) (.str s) = .ok (.str s) := rfl
@[go_exec] theorem assignTo_bytes (s : Option (List UInt8)) : assignTo W (.bytes, t) (.bytes s) = .ok (.bytes s) := rfl
@[go_exec] theorem assignTo_bytes_nil : assignTo W (.bytes, t) .nil = .ok (.bytes none) := rfl
@[go_exec] theorem assignTo_error : assignTo W (.error, t) .nil = .ok .nil := rfl
@[go_exec] theorem convert_u8 (x : UInt8) : convert W (.u8, t) (.u8 u x) = .ok (.u8 t x) := rfl
@[go_exec] theorem convert_int (x : UInt8) : convert W (.int, t) (.u8 u x) = .ok (.int t x.toNat) := rfl
@[go_exec] theorem defineAs_int (i : Int) : defineAs W (.int t i) = .ok (.int t i) := rfl
@[go_exec] theorem defineAs_u8 (x : UInt8) : defineAs W (.u8 t x) = .ok (.u8 t x) := rfl
@[go_exec] theorem defineAs_bool (b : Bool) : defineAs W (.bool b) = .ok (.bool b) := rfl
@[go_exec] theorem defineAs_bytes (s : Option (List UInt8)) : defineAs W (.bytes s) = .ok (.bytes s) := rfl
@[go_exec] theorem lenOf_bytes (s : Option (List UInt8)) : lenOf (.bytes s) = .ok (.int tyInt (s.getD []).length) := rfl
end

attribute [go_exec] leave List.drop_succ_cons List.drop_zero Nat.sub_self Env.get Env.set defineAll assignVar List.length_cons List.length_nil if_true if_false callWith bindParams
  bindResults results zeroValue typeOf List.append_nil List.nil_append List.cons_append Bool.or_false Bool.or_true

end Textseg.GoLang
