import Verif.GoMem.Program
import Verif.GoMem.Attr
import Verif.Proofs.GoGlobals
/-!
# Executing the syntax trees of the generator: lemmas for `simp`
-/

namespace Textseg.GoMem
set_option linter.unusedSimpArgs false
open Textseg.GoLang (TyId tyInt tyU8 Halt importName wrap)

/-- The continuation of a computation. -/
def bindR {α β : Type} (x : Except Halt (α × Heap)) (f : α → Heap → Except Halt (β × Heap)) : Except Halt (β × Heap) :=
  match x with
  | .ok (a, h) => f a h
  | .error e => .error e

/-- `simp` evaluates the first computation before it looks at the second. -/
@[congr] theorem bindR_congr {α β : Type} {x x' : Except Halt (α × Heap)} {f : α → Heap → Except Halt (β × Heap)} (h : x = x') :
    bindR x f = bindR x' f := by rw [h]

section
variable {α β : Type} (h : Heap)
@[mem_exec ↓] theorem bind_apply (x : M α) (f : α → M β) : (x >>= f) h = bindR (x h) fun a h => f a h := rfl
@[mem_exec ↓] theorem pure_apply (a : α) : (pure a : M α) h = .ok (a, h) := rfl
@[mem_exec ↓] theorem halt_apply (e : Halt) : (halt e : M α) h = .error e := rfl
@[mem_exec ↓] theorem stuck_apply : (stuck : M α) h = .error .stuck := rfl
@[mem_exec ↓] theorem panic_apply (p : GoPanic) : (panic_ p : M α) h = .error (.panic p) := rfl
@[mem_exec] theorem bindR_ok (a : α) (f : α → Heap → Except Halt (β × Heap)) : bindR (.ok (a, h)) f = f a h := rfl
@[mem_exec] theorem bindR_error (e : Halt) (f : α → Heap → Except Halt (β × Heap)) : bindR (.error e) f = .error e := rfl
theorem bindR_assoc {γ : Type} (x : Except Halt (α × Heap)) (f : α → Heap → Except Halt (β × Heap))
    (g : β → Heap → Except Halt (γ × Heap)) : bindR (bindR x f) g = bindR x fun a h => bindR (f a h) g := by
  cases x <;> rfl
@[mem_exec] theorem ite_apply (p : Prop) [Decidable p] (x y : M α) : (if p then x else y) h = if p then x h else y h := by
  split <;> rfl
@[mem_exec ↓] theorem alloc_apply (o : Obj) : alloc o h = .ok (h.length, h ++ [o]) := rfl
@[mem_exec ↓] theorem store_apply (a : Nat) (o : Obj) : store a o h = .ok ((), h.set a o) := rfl
@[mem_exec] theorem single_one (v : Val) : single [v] h = .ok (v, h) := rfl
end

theorem bindR_ext {α β : Type} (x : Except Halt (α × Heap)) {f g : α → Heap → Except Halt (β × Heap)}
    (hfg : ∀ a h, f a h = g a h) : bindR x f = bindR x g := by
  rw [show f = g from funext fun a => funext fun h => hfg a h]

section
variable (c : Ctx) (env : Env) (L base : Nat) (h : Heap)

@[mem_exec ↓] theorem evalMulti_num (n : Nat) : evalMulti c env (.num n) h = .ok ([.const n], h) := rfl
@[mem_exec ↓] theorem evalMulti_str (n : Nat) : evalMulti c env (.str n) h = .ok ([.str (textLine n)], h) := rfl

/-- The value of a name. -/
def identOf (c : Ctx) (x : Nat) (h : Heap) : Option Val → Except Halt (List Val × Heap)
  | some (.cell _ a) => bindR (loadStruct a h) fun v h => .ok ([v], h)
  | some (.boxed a) => bindR (loadBox a h) fun v h => .ok ([v], h)
  | some v => .ok ([v], h)
  | none => bindR (globalOrPredeclared c x h) fun v h => .ok ([v], h)
@[mem_exec ↓] theorem evalMulti_ident (x : Nat) : evalMulti c env (.ident x) h = identOf c x h (env.get x) := by
  simp only [evalMulti]
  cases env.get x with
  | none => rfl
  | some v => cases v <;> rfl
attribute [mem_exec] identOf

@[mem_exec ↓] theorem evalMulti_bin (op : BinOp) (a b : Expr) : evalMulti c env (.bin op a b) h =
    bindR (operator c.m.W op (eval c env a) (eval c env b) h) fun r h => .ok ([r], h) := rfl
@[mem_exec ↓] theorem evalMulti_not (e : Expr) : evalMulti c env (.not e) h =
    bindR (evalMulti c env e h) fun v h => bindR (single v h) fun v h => bindR (boolValue v h) fun b h => .ok ([.bool !b], h) := rfl
@[mem_exec ↓] theorem evalMulti_index (e i : Expr) : evalMulti c env (.index e i) h =
    bindR (evalMulti c env e h) fun v h => bindR (single v h) fun v h => bindR (evalMulti c env i h) fun i h => bindR (single i h) fun i h => bindR (indexOf v i h) fun r h => .ok ([r], h) := rfl
@[mem_exec ↓] theorem evalMulti_slice (e lo hi : Expr) : evalMulti c env (.slice e lo hi) h =
    bindR (evalMulti c env e h) fun v h => bindR (single v h) fun v h => bindR (boundOf lo (evalMulti c env lo) h) fun lo h =>
      bindR (boundOf hi (evalMulti c env hi) h) fun hi h => bindR (sliceOf v (lo.getD 0) hi h) fun r h => .ok ([r], h) := rfl
@[mem_exec ↓] theorem evalMulti_comp (t : Ty) (es : Exprs) : evalMulti c env (.comp t es) h =
    bindR (compOf c t (evalKeyed c env es) (evalArgs c env es) h) fun v h => .ok ([v], h) := rfl
@[mem_exec ↓] theorem evalMulti_addrIndex (e i : Expr) : evalMulti c env (.addr (.index e i)) h =
    bindR (evalMulti c env e h) fun v h => bindR (single v h) fun v h => bindR (evalMulti c env i h) fun i h =>
      bindR (single i h) fun i h => addrElem v i h := rfl
@[mem_exec ↓] theorem evalMulti_addrComp (t : Ty) (es : Exprs) : evalMulti c env (.addr (.comp t es)) h =
    bindR (compOf c t (evalKeyed c env es) (evalArgs c env es) h) fun v h => newStruct v h := rfl
@[mem_exec ↓] theorem evalMulti_addrIdent (x : Nat) : evalMulti c env (.addr (.ident x)) h =
    (match env.get x with
      | some (.cell t a) => (pure [.ptr t a] : M (List Val))
      | _ => stuck) h := rfl
@[mem_exec ↓] theorem evalMulti_deref (e : Expr) : evalMulti c env (.deref e) h =
    bindR (evalMulti c env e h) fun v h => bindR (single v h) fun v h => derefOf v h := rfl
@[mem_exec ↓] theorem evalMulti_sel (y x : Nat) : evalMulti c env (.sel (.ident y) x) h =
    if ((env.get y).isNone && c.imported y) = true then bindR (c.global y x h) fun v h => .ok ([v], h)
    else bindR (evalMulti c env (.ident y) h) fun v h => bindR (single v h) fun v h => bindR (fieldOf v x h) fun r h => .ok ([r], h) := by
  by_cases hc : ((env.get y).isNone && c.imported y) = true
  · simp only [evalMulti, hc, if_true]; rfl
  · simp only [evalMulti, hc, if_false]; rfl
@[mem_exec ↓] theorem evalMulti_make (t : Ty) (rest : Exprs) (he : (Env.get (name! "make") env).isSome = false)
    (hf : (find c.pkg (name! "make") c.prog).isNone = true) :
    evalMulti c env (.call (.ident (name! "make")) (.cons (.ty t) rest)) h =
    bindR (resolve c t h) fun t h => bindR (evalArgs c env rest h) fun vs h => bindR (makeOf t vs h) fun v h => .ok ([v], h) := by
  simp only [evalMulti, he, hf, and_self, if_true]
  rfl
@[mem_exec ↓] theorem evalMulti_callName (x : Nat) (args : Exprs) (hx : x ≠ name! "make") (hx' : x ≠ name! "append") (he : (Env.get x env).isSome = false) :
    evalMulti c env (.call (.ident x) args) h = bindR (evalArgs c env args h) fun vs h => callName c x vs h := by
  have hm : ¬ (x = name! "make" ∧ (find c.pkg x c.prog).isNone = true) := fun h => hx h.1
  have ha : ¬ (x = name! "append" ∧ (find c.pkg x c.prog).isNone = true) := fun h => hx' h.1
  have hs : ¬ ((Env.get x env).isSome = true) := by rw [he]; exact Bool.false_ne_true
  rcases args with _ | ⟨e, es⟩
  · simp only [evalMulti, if_neg hm, if_neg ha, if_neg hs]; rfl
  · cases e <;> (simp only [evalMulti, if_neg hm, if_neg ha, if_neg hs]; rfl)
@[mem_exec ↓] theorem evalMulti_callSel (y x : Nat) (args : Exprs) : evalMulti c env (.call (.sel (.ident y) x) args) h =
    if ((env.get y).isNone && c.imported y) = true then bindR (evalArgs c env args h) fun vs h => callQualified c y x vs h
    else bindR (evalMulti c env (.ident y) h) fun v h => bindR (single v h) fun v h => bindR (evalArgs c env args h) fun vs h => c.callMethod v x vs h := by
  by_cases hc : ((env.get y).isNone && c.imported y) = true
  · simp only [evalMulti, hc, if_true]; rfl
  · simp only [evalMulti, hc, if_false]; rfl
@[mem_exec ↓] theorem evalMulti_append (args : Exprs) (he : (Env.get (name! "append") env).isNone = true)
    (hf : (find c.pkg (name! "append") c.prog).isNone = true) :
    evalMulti c env (.callSpread (.ident (name! "append")) args) h =
      bindR (evalArgs c env args h) fun vs h => appendOf c.m vs h := by
  simp only [evalMulti, he, hf, and_self, if_true]
  rfl
@[mem_exec ↓] theorem eval_eq (e : Expr) : eval c env e h = bindR (evalMulti c env e h) fun vs h => single vs h := rfl
@[mem_exec ↓] theorem evalArgs_nil : evalArgs c env .nil h = .ok ([], h) := rfl
@[mem_exec ↓] theorem evalArgs_cons (e : Expr) (es : Exprs) : evalArgs c env (.cons e es) h =
    bindR (evalMulti c env e h) fun v h => bindR (single v h) fun v h => bindR (evalArgs c env es h) fun vs h => .ok (v :: vs, h) := rfl
@[mem_exec ↓] theorem evalKeyed_nil : evalKeyed c env .nil h = .ok ([], h) := rfl
@[mem_exec ↓] theorem evalKeyed_cons (x : Nat) (e : Expr) (es : Exprs) : evalKeyed c env (.cons (.keyed x e) es) h =
    bindR (evalMulti c env e h) fun v h => bindR (single v h) fun v h => bindR (evalKeyed c env es h) fun vs h => .ok ((x, v) :: vs, h) := rfl

@[mem_exec ↓] theorem evalRight_none (n : Nat) : evalRight c env n .nil h = .ok ([], h) := rfl
@[mem_exec ↓] theorem evalRight_one (n : Nat) (hn : n ≠ 2) (e : Expr) : evalRight c env n (.cons e .nil) h = evalMulti c env e h := by
  rcases n with _ | _ | _ | n
  · cases e <;> rfl
  · cases e <;> rfl
  · exact absurd rfl hn
  · cases e <;> rfl
@[mem_exec ↓] theorem evalRight_map (e i : Expr) : evalRight c env 2 (.cons (.index e i) .nil) h =
    bindR (eval c env e h) fun v h => bindR (eval c env i h) fun i h =>
      (match v, i with
      | .map e a, .str k => (do
        let (x, ok) ← loadMap e a k
        pure [x, .bool ok] : M (List Val))
      | _, _ => stuck) h := rfl
@[mem_exec ↓] theorem evalRight_call (n : Nat) (f : Expr) (args : Exprs) : evalRight c env n (.cons (.call f args) .nil) h =
    evalMulti c env (.call f args) h := by
  rcases n with _ | _ | _ | n <;> rfl
@[mem_exec ↓] theorem evalRight_two (n : Nat) (e e' : Expr) (es : Exprs) : evalRight c env n (.cons e (.cons e' es)) h =
    evalArgs c env (.cons e (.cons e' es)) h := rfl

@[mem_exec ↓] theorem evalL_ident (x : Nat) (hx : x ≠ name! "_") : evalL c env (.ident x) h = .ok (.var x, h) := by
  simp only [evalL, hx, if_false]; rfl
@[mem_exec ↓] theorem evalL_index (e i : Expr) : evalL c env (.index e i) h =
    bindR (eval c env e h) fun v h => bindR (eval c env i h) fun i h =>
    (match v, i with
    | .map e a, .str k => (pure (.mapElem e a k) : M LVal)
    | v, i =>
      match extent v with
      | some (_, s) => do
        let i ← indexValue i
        pure (.elem s i)
      | none => stuck) h := rfl
@[mem_exec ↓] theorem evalL_sel (y x : Nat) : evalL c env (.sel (.ident y) x) h =
    (match env.get y with
      | some (.ptr _ a) => (pure (.field a x) : M LVal)
      | some (.cell _ a) => pure (.field a x)
      | _ => stuck) h := rfl
@[mem_exec ↓] theorem evalL_deref (e : Expr) : evalL c env (.deref e) h =
    bindR (eval c env e h) fun v h =>
    (match v with
    | .ptrElem _ a i => (pure (.at a i) : M LVal)
    | _ => stuck) h := rfl
@[mem_exec ↓] theorem evalLs_nil : evalLs c env .nil h = .ok ([], h) := rfl
@[mem_exec ↓] theorem evalLs_cons (e : Expr) (es : Exprs) : evalLs c env (.cons e es) h =
    bindR (evalL c env e h) fun l h => bindR (evalLs c env es h) fun ls h => .ok (l :: ls, h) := rfl

@[mem_exec ↓] theorem exec_skip : exec c L .skip base env h = .ok (.next env, h) := rfl
@[mem_exec ↓] theorem exec_define (xs : List Nat) (es : Exprs) : exec c L (.define xs es) base env h =
    bindR (evalRight c env xs.length es h) fun vs h => bindR (defineAll c.m.W base env xs vs h) fun env h => .ok (.next env, h) := rfl
@[mem_exec ↓] theorem exec_assign (ls es : Exprs) : exec c L (.assign ls es) base env h =
    bindR (evalLs c env ls h) fun ls h => bindR (evalRight c env ls.length es h) fun vs h =>
      bindR (storeLs c.m.W env ls vs h) fun env h => .ok (.next env, h) := rfl
@[mem_exec ↓] theorem exec_opAssign (op : BinOp) (l e : Expr) : exec c L (.opAssign op l e) base env h =
    bindR (evalL c env l h) fun l h => bindR (loadL env l h) fun old h => bindR (eval c env e h) fun v h =>
      bindR (binary c.m.W op old v h) fun v h => bindR (storeL c.m.W env l v h) fun env h => .ok (.next env, h) := rfl
@[mem_exec ↓] theorem exec_varDecl (xs : List Nat) (t : Ty) : exec c L (.varDecl xs t) base env h =
    bindR (resolve c t h) fun t h => bindR (declareZero env t xs h) fun env h => .ok (.next env, h) := rfl
@[mem_exec ↓] theorem exec_expr (e : Expr) : exec c L (.expr e) base env h =
    bindR (evalMulti c env e h) fun _ h => .ok (.next env, h) := rfl
/-- Not a function literal. -/
def notLit : Exprs → Bool
  | .cons (.funcLit _ _ _) .nil => false
  | _ => true
attribute [mem_exec] notLit.eq_def
@[mem_exec ↓] theorem exec_ret (es : Exprs) (hes : notLit es = true) : exec c L (.ret es) base env h =
    bindR (evalRight c env 0 es h) fun vs h => .ok (.ret vs, h) := by
  rcases es with _ | ⟨e, _ | ⟨e', es⟩⟩
  · rfl
  · cases e <;> first | rfl | cases hes
  · cases e <;> rfl
@[mem_exec ↓] theorem exec_if (e : Expr) (thn els : Stmts) : exec c L (.ifThen .skip e thn els) base env h =
    bindR (eval c env e h) fun v h => bindR (boolValue v h) fun b h =>
      if b then bindR (execs c L thn env.length env h) fun o h => .ok (leave env.length o, h)
      else bindR (execs c L els env.length env h) fun o h => .ok (leave env.length o, h) := by
  simp only [exec, bind_apply, pure_apply, bindR_ok]
  refine bindR_ext _ fun v h => bindR_ext _ fun b h => ?_
  cases b <;> rfl
@[mem_exec ↓] theorem exec_block (ss : Stmts) : exec c L (.block ss) base env h =
    bindR (execs c L ss env.length env h) fun o h => .ok (leave env.length o, h) := rfl
@[mem_exec ↓] theorem execs_nil : execs c L .nil base env h = .ok (.next env, h) := rfl
/-- What follows a statement. -/
def andThen (c : Ctx) (L base : Nat) (ss : Stmts) : Out → Heap → Except Halt (Out × Heap)
  | .next env, h => execs c L ss base env h
  | .ret vs, h => .ok (.ret vs, h)
  | .brk env, h => .ok (.brk env, h)
  | .cont env, h => .ok (.cont env, h)
@[mem_exec ↓] theorem execs_cons (s : Stmt) (ss : Stmts) : execs c L (.cons s ss) base env h =
    bindR (exec c L s base env h) (andThen c L base ss) := by
  rw [execs, bind_apply]
  refine bindR_ext _ fun o h => ?_
  cases o <;> rfl
attribute [mem_exec ↓] andThen
/-- One iteration of `range`. -/
def rangeBody (c : Ctx) (L : Nat) (s : Sl) (k v : Nat) (body : Stmts) (i : Nat) (env : Env) : M Out := do
  let env' ← rangeVars s k v i env
  let o ← execs c L body env'.length env'
  pure (leave env.length o)
theorem rangeBody_apply (s : Sl) (k v : Nat) (body : Stmts) (i : Nat) : rangeBody c L s k v body i env h =
    bindR (rangeVars s k v i env h) fun env' h => bindR (execs c L body env'.length env' h) fun o h => .ok (leave env.length o, h) := rfl
/-- What follows an iteration of `range`. -/
def rangeNext (body : Nat → Env → M Out) (n i : Nat) : Out → Heap → Except Halt (Out × Heap)
  | .ret vs, h => .ok (.ret vs, h)
  | .brk env, h => .ok (.next env, h)
  | .next env, h => rangeN body n (i + 1) env h
  | .cont env, h => rangeN body n (i + 1) env h
theorem rangeN_zero (body : Nat → Env → M Out) (i : Nat) : rangeN body 0 i env h = .ok (.next env, h) := rfl
theorem rangeN_succ (body : Nat → Env → M Out) (n i : Nat) : rangeN body (n + 1) i env h =
    bindR (body i env h) (rangeNext body n i) := by
  rw [rangeN, bind_apply]
  refine bindR_ext _ fun o h => ?_
  cases o <;> rfl
@[mem_exec ↓] theorem exec_range (k v : Nat) (e : Expr) (body : Stmts) : exec c L (.range k v e body) base env h =
    bindR (eval c env e h) fun r h =>
    (match extent r with
    | some (_, s) =>
      match s with
      | some s => rangeN (rangeBody c L s k v body) s.len 0 env
      | none => (pure (.next env) : M Out)
    | none => stuck) h := rfl
@[mem_exec ↓] theorem exec_switch (e : Expr) (cs : Clauses) : exec c L (.switch e cs) base env h =
    bindR (eval c env e h) fun v h => bindR (execCases c L v cs env h) fun r h =>
      bindR ((match r with
        | some o => (pure o : M Out)
        | none => execDefault c L cs env) h) fun o h =>
      (match leave env.length o with
      | .brk env => (pure (.next env) : M Out)
      | o => pure o) h := rfl
@[mem_exec ↓] theorem execCases_nil (v : Val) : execCases c L v .nil env h = .ok (none, h) := rfl
@[mem_exec ↓] theorem execCases_dflt (v : Val) (b : Stmts) (cs : Clauses) : execCases c L v (.dflt b cs) env h = execCases c L v cs env h := rfl
@[mem_exec ↓] theorem execCases_case (v : Val) (es : Exprs) (b : Stmts) (cs : Clauses) : execCases c L v (.case es b cs) env h =
    bindR (matches_ c env v es h) fun m h =>
      if m then bindR (execs c L b env.length env h) fun o h => .ok (some o, h) else execCases c L v cs env h := by
  rw [execCases, bind_apply]
  refine bindR_ext _ fun m h => ?_
  cases m <;> rfl
@[mem_exec ↓] theorem execDefault_nil : execDefault c L .nil env h = .ok (.next env, h) := rfl
@[mem_exec ↓] theorem execDefault_dflt (b : Stmts) (cs : Clauses) : execDefault c L (.dflt b cs) env h = execs c L b env.length env h := rfl
@[mem_exec ↓] theorem execDefault_case (es : Exprs) (b : Stmts) (cs : Clauses) :
    execDefault c L (.case es b cs) env h = execDefault c L cs env h := rfl
@[mem_exec ↓] theorem matches_nil (v : Val) : matches_ c env v .nil h = .ok (false, h) := rfl
@[mem_exec ↓] theorem matches_cons (v : Val) (e : Expr) (es : Exprs) : matches_ c env v (.cons e es) h =
    bindR (eval c env e h) fun w h => bindR (binary c.m.W .eq v w h) fun r h => bindR (boolValue r h) fun b h =>
      if b then .ok (true, h) else matches_ c env v es h := by
  rw [matches_, bind_apply]
  refine bindR_ext _ fun m h => ?_
  rw [bind_apply]
  refine bindR_ext _ fun m h => ?_
  rw [bind_apply]
  refine bindR_ext _ fun b h => ?_
  cases b <;> rfl
@[mem_exec ↓] theorem bindParams_nil : bindParams c env [] [] h = .ok (env, h) := rfl
@[mem_exec ↓] theorem bindParams_cons (x : Nat) (t : Ty) (ps : List (Nat × Ty)) (v : Val) (vs : List Val) :
    bindParams c env ((x, t) :: ps) (v :: vs) h =
    bindR (resolve c t h) fun t h => bindR (assignTo c.m.W t v h) fun v h => bindR (declare env x v h) fun env h =>
      bindParams c env ps vs h := rfl
@[mem_exec ↓] theorem results_nil : results c [] [] h = .ok ([], h) := rfl
@[mem_exec ↓] theorem results_cons (x : Nat) (t : Ty) (ps : List (Nat × Ty)) (v : Val) (vs : List Val) :
    results c ((x, t) :: ps) (v :: vs) h =
    bindR (resolve c t h) fun t h => bindR (assignTo c.m.W t v h) fun v h => bindR (results c ps vs h) fun rest h =>
      .ok (v :: rest, h) := rfl
/-- What a call returns. -/
def returned (c : Ctx) (rs : List (Nat × Ty)) : Out → Heap → Except Halt (List Val × Heap)
  | .ret vs, h => results c rs vs h
  | .next _, h => if rs.isEmpty then .ok ([], h) else .error .stuck
  | _, _ => .error .stuck
@[mem_exec ↓] theorem callWith_func (x : Nat) (ps rs : List (Nat × Ty)) (b : Stmts) (args : List Val) :
    callWith c L ⟨none, x, ps, rs, b⟩ none args h =
      bindR (bindParams c [] ps args h) fun env h => bindR (execs c L b 0 env h) (returned c rs) := by
  refine bindR_ext _ fun env h => bindR_ext _ fun o h => ?_
  cases o <;> (try rfl)
  simp only [returned]
  split <;> rfl
@[mem_exec ↓] theorem callWith_method (x : Nat) (r : Nat × Ty) (ps rs : List (Nat × Ty)) (b : Stmts) (v : Val) (args : List Val) :
    callWith c L ⟨some r, x, ps, rs, b⟩ (some v) args h =
      bindR (bindParams c [] [r] [v] h) fun env h => bindR (bindParams c env ps args h) fun env h =>
        bindR (execs c L b 0 env h) (returned c rs) := by
  refine bindR_ext _ fun env h => bindR_ext _ fun env h => bindR_ext _ fun o h => ?_
  cases o <;> (try rfl)
  simp only [returned]
  split <;> rfl
attribute [mem_exec ↓] returned
@[mem_exec] theorem boolValue_bool (b : Bool) : boolValue (.bool b) h = .ok (b, h) := rfl
end

section
variable (W : Nat) (h : Heap)

theorem operator_strict (op : BinOp) (x y : M Val) (h1 : op ≠ .land) (h2 : op ≠ .lor) :
    operator W op x y h = bindR (x h) fun v h => bindR (y h) fun w h => binary W op v w h := by
  refine bindR_ext _ fun v h => ?_
  cases op <;> first | exact absurd rfl h1 | exact absurd rfl h2 | (cases v <;> rfl)
@[mem_exec ↓] theorem operator_eq (x y : M Val) : operator W .eq x y h = bindR (x h) fun v h => bindR (y h) fun w h => binary W .eq v w h :=
  operator_strict W h _ x y (fun h => (by cases h)) (fun h => (by cases h))
@[mem_exec ↓] theorem operator_ne (x y : M Val) : operator W .ne x y h = bindR (x h) fun v h => bindR (y h) fun w h => binary W .ne v w h :=
  operator_strict W h _ x y (fun h => (by cases h)) (fun h => (by cases h))
@[mem_exec ↓] theorem operator_gt (x y : M Val) : operator W .gt x y h = bindR (x h) fun v h => bindR (y h) fun w h => binary W .gt v w h :=
  operator_strict W h _ x y (fun h => (by cases h)) (fun h => (by cases h))
@[mem_exec ↓] theorem operator_add (x y : M Val) : operator W .add x y h = bindR (x h) fun v h => bindR (y h) fun w h => binary W .add v w h :=
  operator_strict W h _ x y (fun h => (by cases h)) (fun h => (by cases h))
@[mem_exec ↓] theorem operator_sub (x y : M Val) : operator W .sub x y h = bindR (x h) fun v h => bindR (y h) fun w h => binary W .sub v w h :=
  operator_strict W h _ x y (fun h => (by cases h)) (fun h => (by cases h))
@[mem_exec ↓] theorem operator_mul (x y : M Val) : operator W .mul x y h = bindR (x h) fun v h => bindR (y h) fun w h => binary W .mul v w h :=
  operator_strict W h _ x y (fun h => (by cases h)) (fun h => (by cases h))
@[mem_exec ↓] theorem operator_and (x y : M Val) : operator W .and x y h = bindR (x h) fun v h => bindR (y h) fun w h => binary W .and v w h :=
  operator_strict W h _ x y (fun h => (by cases h)) (fun h => (by cases h))
@[mem_exec ↓] theorem operator_or (x y : M Val) : operator W .or x y h = bindR (x h) fun v h => bindR (y h) fun w h => binary W .or v w h :=
  operator_strict W h _ x y (fun h => (by cases h)) (fun h => (by cases h))
@[mem_exec ↓] theorem operator_shl (x y : M Val) : operator W .shl x y h = bindR (x h) fun v h => bindR (y h) fun w h => binary W .shl v w h :=
  operator_strict W h _ x y (fun h => (by cases h)) (fun h => (by cases h))
@[mem_exec ↓] theorem operator_shr (x y : M Val) : operator W .shr x y h = bindR (x h) fun v h => bindR (y h) fun w h => binary W .shr v w h :=
  operator_strict W h _ x y (fun h => (by cases h)) (fun h => (by cases h))
/-- `&&` after its first operand. -/
def landRest (y : M Val) : Val → Heap → Except Halt (Val × Heap)
  | .bool false, h => .ok (.bool false, h)
  | _, h => bindR (y h) fun w h => bindR (boolValue w h) fun b h => .ok (.bool b, h)
@[mem_exec ↓] theorem operator_land (x y : M Val) : operator W .land x y h = bindR (x h) (landRest y) := by
  refine bindR_ext _ fun v h => ?_
  rcases v with _ | _ | _ | _ | _ | b <;> try rfl
  cases b <;> rfl
@[mem_exec] theorem landRest_false (y : M Val) : landRest y (.bool false) h = .ok (.bool false, h) := rfl
@[mem_exec] theorem landRest_true (y : M Val) : landRest y (.bool true) h = bindR (y h) fun w h => bindR (boolValue w h) fun b h => .ok (.bool b, h) := rfl

@[mem_exec] theorem binary_int (op : BinOp) (t : TyId) (a b : Int) : binary W op (.int t a) (.int t b) h = intOp W t op a b h := by
  cases op <;> simp only [binary, typeOf, sameOp, if_true]
@[mem_exec] theorem binary_u8 (op : BinOp) (t : TyId) (a b : UInt8) : binary W op (.u8 t a) (.u8 t b) h = u8Op t op a b h := by
  cases op <;> simp only [binary, typeOf, sameOp, if_true]
@[mem_exec] theorem binary_u16 (op : BinOp) (t : TyId) (a b : UInt16) : binary W op (.u16 t a) (.u16 t b) h = u16Op t op a b h := by
  cases op <;> simp only [binary, typeOf, sameOp, if_true]
theorem binary_typed (op : BinOp) (v : Val) (t : GTy) (ht : typeOf v = some t) (h1 : op ≠ .shl) (h2 : op ≠ .shr) (b : Int) :
    binary W op v (.const b) h = bindR (assignTo W t (.const b) h) fun w h => sameOp W op v w h := by
  have hc : typeOf (.const b) = none := rfl
  cases op <;> first | exact absurd rfl h1 | exact absurd rfl h2 | (simp only [binary, ht, hc]; rfl)
@[mem_exec] theorem binary_int_const (op : BinOp) (t : TyId) (a b : Int) (h1 : op ≠ .shl) (h2 : op ≠ .shr) (hw : wrap W b = b) :
    binary W op (.int t a) (.const b) h = intOp W t op a b h := by
  rw [binary_typed W h op _ _ rfl h1 h2, assignTo, if_pos hw]
  simp only [pure_apply, bindR_ok, sameOp, if_true]
@[mem_exec] theorem binary_u8_const (op : BinOp) (t : TyId) (a : UInt8) (b : Int) (h1 : op ≠ .shl) (h2 : op ≠ .shr) (h0 : 0 ≤ b) (hb : b < 256) :
    binary W op (.u8 t a) (.const b) h = u8Op t op a (UInt8.ofNat b.toNat) h := by
  rw [binary_typed W h op _ _ rfl h1 h2, assignTo, if_pos ⟨h0, hb⟩]
  simp only [pure_apply, bindR_ok, sameOp, if_true]
@[mem_exec] theorem binary_u16_const (op : BinOp) (t : TyId) (a : UInt16) (b : Int) (h1 : op ≠ .shl) (h2 : op ≠ .shr) (h0 : 0 ≤ b) (hb : b < 65536) :
    binary W op (.u16 t a) (.const b) h = u16Op t op a (UInt16.ofNat b.toNat) h := by
  rw [binary_typed W h op _ _ rfl h1 h2, assignTo, if_pos ⟨h0, hb⟩]
  simp only [pure_apply, bindR_ok, sameOp, if_true]
@[mem_exec] theorem binary_const (op : BinOp) (a b : Int) (h1 : op ≠ .shl) (h2 : op ≠ .shr) :
    binary W op (.const a) (.const b) h = constOp op a b h := by
  cases op <;> first | exact absurd rfl h1 | exact absurd rfl h2 | rfl
@[mem_exec] theorem binary_shl (v : Val) (n : Int) (hn : 0 ≤ n) : binary W .shl v (.const n) h = shiftLeft W n.toNat v h := by
  simp only [binary]
  rw [if_pos hn]
@[mem_exec] theorem binary_shr (v : Val) (n : Int) (hn : 0 ≤ n) : binary W .shr v (.const n) h = shiftRight n.toNat v h := by
  simp only [binary]
  rw [if_pos hn]

@[mem_exec] theorem assignTo_int (t : TyId) (i : Int) : assignTo W (.int t) (.int t i) h = .ok (.int t i, h) := by
  simp only [assignTo]; rw [if_pos (by rfl)]; rfl
@[mem_exec] theorem assignTo_u8 (t : TyId) (i : UInt8) : assignTo W (.u8 t) (.u8 t i) h = .ok (.u8 t i, h) := by
  simp only [assignTo]; rw [if_pos (by rfl)]; rfl
@[mem_exec] theorem assignTo_u16 (t : TyId) (i : UInt16) : assignTo W (.u16 t) (.u16 t i) h = .ok (.u16 t i, h) := by
  simp only [assignTo]; rw [if_pos (by rfl)]; rfl
@[mem_exec] theorem assignTo_rune (t : TyId) (i : Int32) : assignTo W (.rune t) (.rune t i) h = .ok (.rune t i, h) := by
  simp only [assignTo]; rw [if_pos (by rfl)]; rfl
@[mem_exec] theorem assignTo_str (s : GoString) : assignTo W .str (.str s) h = .ok (.str s, h) := by
  simp only [assignTo]; rw [if_pos (by rfl)]; rfl
@[mem_exec] theorem assignTo_slice (t : TyId) (e : GTy) (s : Option Sl) : assignTo W (.slice t e) (.slice t e s) h = .ok (.slice t e s, h) := by
  simp only [assignTo]; rw [if_pos (by rfl)]; rfl
@[mem_exec] theorem assignTo_ptr (t : TyId) (a : Nat) : assignTo W (.ptr (.struct t)) (.ptr t a) h = .ok (.ptr t a, h) := by
  simp only [assignTo]; rw [if_pos (by rfl)]; rfl
@[mem_exec] theorem assignTo_ptrElem (e : GTy) (a i : Nat) : assignTo W (.ptr e) (.ptrElem e a i) h = .ok (.ptrElem e a i, h) := by
  simp only [assignTo]; rw [if_pos (by rfl)]; rfl
@[mem_exec] theorem assignTo_map (e : GTy) (a : Nat) : assignTo W (.map e) (.map e a) h = .ok (.map e a, h) := by
  simp only [assignTo]; rw [if_pos (by rfl)]; rfl
@[mem_exec] theorem assignTo_struct (t : TyId) (fs : List (Nat × Val)) : assignTo W (.struct t) (.struct t fs) h = .ok (.struct t fs, h) := by
  simp only [assignTo]; rw [if_pos (by rfl)]; rfl
@[mem_exec] theorem assignTo_intConst (t : TyId) (i : Int) (hw : wrap W i = i) : assignTo W (.int t) (.const i) h = .ok (.int t i, h) := by
  rw [assignTo, if_pos hw]; rfl
@[mem_exec] theorem assignTo_u16Const (t : TyId) (i : Int) (h0 : 0 ≤ i) (hi : i < 65536) :
    assignTo W (.u16 t) (.const i) h = .ok (.u16 t (UInt16.ofNat i.toNat), h) := by
  rw [assignTo, if_pos ⟨h0, hi⟩]; rfl
end

section
variable (n : Nat) (env : Env)
@[mem_exec] theorem leave_next : leave n (.next env) = .next (env.drop (env.length - n)) := rfl
@[mem_exec] theorem leave_ret (vs : List Val) : leave n (.ret vs) = .ret vs := rfl
@[mem_exec] theorem leave_brk : leave n (.brk env) = .brk (env.drop (env.length - n)) := rfl
@[mem_exec] theorem leave_cont : leave n (.cont env) = .cont (env.drop (env.length - n)) := rfl
end

section
variable (W : Nat) (env : Env) (h : Heap)
@[mem_exec ↓] theorem indexOf_slice (t : TyId) (e : GTy) (s : Option Sl) (i : Val) : indexOf (.slice t e s) i h =
    bindR (indexValue i h) fun i h => bindR (position s i h) fun q h => loadElem q.1 q.2 h := rfl
@[mem_exec ↓] theorem indexOf_array (e : GTy) (a n : Nat) (i : Val) : indexOf (.array e a n) i h =
    bindR (indexValue i h) fun i h => bindR (position (some ⟨a, 0, n, n⟩) i h) fun q h => loadElem q.1 q.2 h := rfl
@[mem_exec ↓] theorem storeL_elem (s : Option Sl) (i : Int) (v : Val) : storeL W env (.elem s i) v h =
    bindR (position s i h) fun q h => bindR (loadElem q.1 q.2 h) fun old h => bindR (replace W old v h) fun v h =>
      bindR (storeElem q.1 q.2 v h) fun _ h => .ok (env, h) := rfl
@[mem_exec ↓] theorem addrElem_slice (t : TyId) (e : GTy) (s : Option Sl) (i : Val) : addrElem (.slice t e s) i h =
    bindR (indexValue i h) fun i h => bindR (position s i h) fun q h => .ok ([.ptrElem e q.1 q.2], h) := rfl
theorem position_ok {s : Sl} {k : Nat} (hk : k < s.len) : position (some s) k h = .ok ((s.a, s.off + k), h) := by
  simp only [position]
  rw [if_pos (by omega), Int.toNat_natCast]; rfl
theorem position_bad {s : Sl} {k : Nat} (hk : ¬ k < s.len) : position (some s) k h = .error (.panic .indexOutOfRange) := by
  simp only [position]
  rw [if_neg (by omega)]; rfl
end

theorem wrap_small (W : Nat) (hW : 32 ≤ W) (i : Int) (h0 : 0 ≤ i) (h1 : i < 2147483648) : wrap W i = i := by
  have h2 : (2 : Nat) ^ 31 ≤ 2 ^ (W - 1) := Nat.pow_le_pow_right (by omega) (by omega)
  obtain ⟨n, rfl⟩ := Int.eq_ofNat_of_zero_le h0
  exact GoLang.wrap_nat (by omega)
attribute [mem_exec] declare declareZero convert zeroValue defineAs intOp u8Op u16Op constOp shiftLeft shiftRight indexValue len extent
  fieldOf fieldGet fieldSet sliceOf appendOf newStruct addrElem derefOf boundOf Env.get Env.set List.length_cons List.length_nil
  defineAll storeL storeLs loadL replace typeOf

end Textseg.GoMem
