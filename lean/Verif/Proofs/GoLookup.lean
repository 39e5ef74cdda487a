import Verif.Proofs.GoTables
/-!
# Running `LookupFirstChar`
-/

namespace Textseg.GoLang
open Textseg

set_option linter.unusedSimpArgs false

/-! ### Results of the model inside code -/

/-- What follows a result of the model. -/
def liftB {α β : Type} (x : Go α) (k : α → R β) : R β :=
  match x with
  | .ok a => k a
  | .error p => .error (.panic p)

theorem lift_bind {α β : Type} (f : β → List Val) (x : Go α) (g : α → Go β) : lift f (x >>= g) = liftB x fun a => lift f (g a) := by
  cases x <;> rfl
theorem liftV_bind {α β : Type} (f : α → Val) (x : Go α) (k : Val → R β) : (liftV f x >>= k) = liftB x fun a => k (f a) := by
  cases x <;> rfl
theorem liftB_bind {α β γ : Type} (x : Go α) (k : α → R β) (k' : β → R γ) : (liftB x k >>= k') = liftB x fun a => k a >>= k' := by
  cases x <;> rfl
theorem lift_liftB {α β : Type} (f : α → List Val) (x : Go α) (k : List Val → R β) : (lift f x >>= k) = liftB x fun a => k (f a) := by
  cases x <;> rfl
theorem liftB_assoc {α β γ : Type} (x : Go α) (g : α → Go β) (k : β → R γ) : liftB (x >>= g) k = liftB x fun a => liftB (g a) k := by
  cases x <;> rfl
theorem operator_liftB_left {α : Type} (W : Nat) (op : BinOp) (x : Go α) (k : α → R Val) (b : R Val) :
    operator W op (liftB x k) b = liftB x fun a => operator W op (k a) b := by
  cases x <;> cases op <;> rfl
theorem operator_liftB_right {α : Type} (W : Nat) (v : Val) (x : Go α) (k : α → R Val) :
    operator W .add (.ok v) (liftB x k) = liftB x fun a => operator W .add (.ok v) (k a) := by
  cases x <;> rfl
theorem natCast_beq (m n : Nat) : ((m : Int) == (n : Int)) = (m == n) := by
  by_cases h : m = n
  · subst h; simp
  · rw [beq_eq_false_iff_ne.mpr h, beq_eq_false_iff_ne]; omega
theorem liftB_ok {α β : Type} (a : α) (k : α → R β) : liftB (.ok a) k = k a := rfl

section
variable {W : Nat} (hW : 32 ≤ W)
include hW

theorem assignTo_lit (t : TyId) (n : Nat) (hn : n < 2 ^ 31) : assignTo W (.int, t) (.const n) = .ok (.int t n) := by
  simp only [assignTo, wrap_nat (small hW hn), if_true]
theorem defineAs_lit (n : Nat) (hn : n < 2 ^ 31) : defineAs W (.const n) = .ok (.int tyInt n) := by
  simp only [defineAs, assignTo, wrap_nat (small hW hn), if_true]
theorem binary_eq_lit (t : TyId) (a : Int) (n : Nat) (hn : n < 2 ^ 31) :
    binary W .eq (.int t a) (.const n) = .ok (.bool (a == (n : Int))) := by
  simp only [binary, intOp, wrap_nat (small hW hn), if_true]
theorem binary_ne_lit (t : TyId) (a : Int) (n : Nat) (hn : n < 2 ^ 31) :
    binary W .ne (.int t a) (.const n) = .ok (.bool (a != (n : Int))) := by
  simp only [binary, intOp, wrap_nat (small hW hn), if_true]
theorem binary_add_lit (t : TyId) (m n : Nat) (h : m + n < 2 ^ 31) :
    binary W .add (.int t m) (.const n) = .ok (.int t (m + n : Nat)) := by
  simp only [binary, intOp, wrap_nat (small hW (show n < 2 ^ 31 by omega)), if_true, ← Int.natCast_add, wrap_nat (small hW h)]
theorem binary_shl6 (t : TyId) (b : UInt8) :
    binary W .shl (.int t b.toNat) (.const (6 : Nat)) = .ok (.int t (b.toNat <<< 6 : Nat)) := by
  have h : (b.toNat : Int) * 2 ^ ((6 : Nat) : Int).toNat = ((b.toNat <<< 6 : Nat) : Int) := by
    rw [Int.toNat_natCast, Nat.shiftLeft_eq]; omega
  have hs : b.toNat <<< 6 < 2 ^ 31 := by have := b.toNat_lt; rw [Nat.shiftLeft_eq]; omega
  have h' : wrap W ((b.toNat : Int) * 2 ^ ((6 : Nat) : Int).toNat) = ((b.toNat <<< 6 : Nat) : Int) := by
    rw [← wrap_nat (small hW hs)]; exact congrArg (wrap W) h
  show (if (0 : Int) ≤ ((6 : Nat) : Int) then Except.ok (Val.int t (wrap W ((b.toNat : Int) * 2 ^ ((6 : Nat) : Int).toNat))) else stuck) = _
  rw [h', if_pos (by decide)]
theorem binary_add_idx (t : TyId) (b x : UInt8) :
    binary W .add (.int t (b.toNat <<< 6 : Nat)) (.int t x.toNat) = .ok (.int t ((b.toNat <<< 6) + x.toNat : Nat)) := by
  have hs : (b.toNat <<< 6) + x.toNat < 2 ^ 31 := by have := b.toNat_lt; have := x.toNat_lt; rw [Nat.shiftLeft_eq]; omega
  simp only [binary, intOp, if_true, ← Int.natCast_add, wrap_nat (small hW hs)]
end

theorem binary_lt_int (W : Nat) (t : TyId) (a b : Int) : binary W .lt (.int t a) (.int t b) = .ok (.bool (decide (a < b))) := by
  simp [binary, intOp]
theorem binary_gt_int (W : Nat) (t : TyId) (a b : Int) : binary W .gt (.int t a) (.int t b) = .ok (.bool (decide (a > b))) := by
  simp [binary, intOp]

theorem indexValue_const (n : Nat) : indexValue (.const n) = .ok (n : Int) := rfl
theorem indexValue_int (t : TyId) (i : Int) : indexValue (.int t i) = .ok i := rfl
theorem indexValue_u8 (t : TyId) (x : UInt8) : indexValue (.u8 t x) = .ok (x.toNat : Int) := rfl

theorem exec_loop (c : Ctx) (L : Nat) (env : Env) (init post : Stmt) (cond : Expr) (body : Stmts) :
    exec c L (.loop init cond post body) env =
    (exec c L init env >>= fun o =>
      match o with
      | .ret vs => .ok (.ret vs)
      | .next env' =>
        loopN (fun env => eval c env cond >>= boolValue) (fun env => execs c L body env >>= fun o => .ok (leave env.length o))
          (fun env => exec c L post env) L env' >>= fun o => .ok (leave env.length o)) := rfl

theorem exec_opAssign (c : Ctx) (L : Nat) (env : Env) (op : BinOp) (x : Nat) (e : Expr) (old : Val) (h : env.get x = some old) :
    exec c L (.opAssign op x e) env =
    (eval c env e >>= fun v => binary c.W op old v >>= fun v => assignVar c.W env x v >>= fun env => .ok (.next env)) := by
  simp only [exec, h]

variable {W : Nat} (L d : Nat) (hW : 32 ≤ W)

section
variable {cond : Env → R Bool} {body post : Env → R Out} (b : Nat) {env : Env}
theorem loopN_stop (hc : cond env = .ok false) : loopN cond body post (b + 1) env = .ok (.next env) := by
  simp only [loopN, hc, go_exec, Bool.false_eq_true]
theorem loopN_ret (hc : cond env = .ok true) {vs : List Val} (hb : body env = .ok (.ret vs)) :
    loopN cond body post (b + 1) env = .ok (.ret vs) := by
  simp only [loopN, hc, hb, go_exec]
theorem loopN_error (hc : cond env = .ok true) {e : Halt} (hb : body env = .error e) :
    loopN cond body post (b + 1) env = .error e := by
  simp only [loopN, hc, hb, go_exec]
theorem loopN_next (hc : cond env = .ok true) {env' env'' : Env} (hb : body env = .ok (.next env')) (hp : post env' = .ok (.next env'')) :
    loopN cond body post (b + 1) env = loopN cond body post b env'' := by
  simp only [loopN, hc, hb, hp, go_exec]
end

/-- property_table.go:43-45: the body of the loop -/
def continuationBody : Stmts :=
  .cons (.ifThen (.bin .ne (.bin .and (.index (.ident (name! "p")) (.ident (name! "i"))) (.num 0b11000000)) (.num 0b10000000))
    (.cons (.ret (.cons (.ident (name! "Error")) (.cons (.num 1) .nil))) .nil) .nil) .nil

/-- The local variables of the loop. -/
def loopEnv (p : Option (List UInt8)) (first : UInt8) (v : Val) (len i : Nat) : Env :=
  [(name! "i", .int tyInt i), (name! "first", .u8 tyU8 first), (name! "p", .bytes p), (name! "props", v), (name! "length", .int tyInt len)]

include hW in
/-- property_table.go:42-46: the loop -/
theorem run_continuationLoop (L' : Nat) (p : Option (List UInt8)) (first : UInt8) (v : Val) (len : Nat) (hl : len < 2 ^ 31) :
    ∀ (n i : Nat) (bound : Nat), i + n = len → n < bound →
    loopN (fun env => eval (ctxT W L (d + 2)) env (.bin .lt (.ident (name! "i")) (.ident (name! "length"))) >>= boolValue)
      (fun env => execs (ctxT W L (d + 2)) L' continuationBody env >>= fun o => .ok (leave env.length o))
      (fun env => exec (ctxT W L (d + 2)) L' (.opAssign .add (name! "i") (.num 1)) env)
      bound (loopEnv p first v len i) =
    liftB (continuationLoop (p.getD []) i n) fun good =>
      if good then .ok (.next (loopEnv p first v len len)) else .ok (.ret [.u8 tCP ErrorProps, .const (1 : Nat)])
  | n, i, 0, _, hb => by omega
  | 0, i, bound + 1, h, _ => by
    rw [Nat.add_zero] at h
    subst h
    rw [loopN_stop]
    · rfl
    · simp only [loopEnv, go_exec, Nat.reduceEqDiff, reduceCtorEq, binary_lt_int, Int.lt_irrefl, decide_false]
  | n + 1, i, bound + 1, h, hb => by
    have hlt : (i : Int) < (len : Int) := by omega
    have ih := run_continuationLoop L' p first v len hl n (i + 1) bound (by omega) (by omega)
    have hc : (eval (ctxT W L (d + 2)) (loopEnv p first v len i) (.bin .lt (.ident (name! "i")) (.ident (name! "length"))) >>= boolValue) =
        .ok true := by
      simp only [loopEnv, go_exec, Nat.reduceEqDiff, reduceCtorEq, binary_lt_int, hlt, decide_true]
    have hb : (execs (ctxT W L (d + 2)) L' continuationBody (loopEnv p first v len i) >>=
          fun o => .ok (leave (List.length (loopEnv p first v len i)) o)) =
        liftB (goIndex (p.getD []) i) fun b =>
          if (b &&& 0b11000000) != 0b10000000 then .ok (.ret [.u8 tCP ErrorProps, .const (1 : Nat)])
          else .ok (.next (loopEnv p first v len i)) := by
      simp only [continuationBody, loopEnv, go_exec, Nat.reduceEqDiff, reduceCtorEq, indexOf_bytes, indexValue_int,
        liftV_bind, liftB_bind, Nat.reduceLT, Nat.reduceAdd, Nat.reduceSub]
      cases goIndex (p.getD []) i with
      | error e => rfl
      | ok b =>
        simp only [go_exec, liftB_ok, liftB_bind, Nat.reduceLT, Nat.reduceEqDiff, reduceCtorEq, Nat.reduceAdd, Nat.reduceSub]
        rfl
    have hp : exec (ctxT W L (d + 2)) L' (.opAssign .add (name! "i") (.num 1)) (loopEnv p first v len i) =
        .ok (.next (loopEnv p first v len (i + 1))) := by
      rw [exec_opAssign (old := .int tyInt i) (h := rfl)]
      simp only [loopEnv, go_exec, Nat.reduceEqDiff, reduceCtorEq, binary_add_lit hW tyInt i 1 (by omega)]
    rw [continuationLoop]
    cases hg : goIndex (p.getD []) i with
    | error e =>
      rw [hg] at hb
      rw [loopN_error bound hc hb]; rfl
    | ok b =>
      rw [hg, liftB_ok] at hb
      by_cases hcnd : ((b &&& 0b11000000) != 0b10000000) = true
      · rw [if_pos hcnd] at hb
        rw [loopN_ret bound hc hb]
        show _ = liftB (if ((b &&& 0b11000000) != 0b10000000) = true then .ok false else continuationLoop (p.getD []) (i + 1) n) _
        rw [if_pos hcnd]
        rfl
      · rw [if_neg hcnd] at hb
        rw [loopN_next bound hc hb hp, ih]
        show _ = liftB (if ((b &&& 0b11000000) != 0b10000000) = true then .ok false else continuationLoop (p.getD []) (i + 1) n) _
        rw [if_neg hcnd]

/-- property_table.go:42-46 -/
def continuationStmt : Stmt :=
  .loop (.define [name! "i"] (.cons (.num 1) .nil)) (.bin .lt (.ident (name! "i")) (.ident (name! "length")))
    (.opAssign .add (name! "i") (.num 1)) continuationBody

/-- The local variables outside of the loop. -/
def lookupEnv (p : Option (List UInt8)) (first : UInt8) (v : Val) (len : Nat) : Env :=
  [(name! "first", .u8 tyU8 first), (name! "p", .bytes p), (name! "props", v), (name! "length", .int tyInt len)]

include hW in
theorem run_continuationStmt (p : Option (List UInt8)) (first : UInt8) (v : Val) (len : Nat) (h1 : 1 ≤ len) (h4 : len ≤ L)
    (hl : len < 2 ^ 31) :
    exec (ctxT W L (d + 2)) L continuationStmt (lookupEnv p first v len) =
    liftB (continuationLoop (p.getD []) 1 (len - 1)) fun good =>
      if good then .ok (.next (lookupEnv p first v len)) else .ok (.ret [.u8 tCP ErrorProps, .const (1 : Nat)]) := by
  have h := run_continuationLoop L d hW L p first v len hl (len - 1) 1 L (by omega) (by omega)
  have hi : exec (ctxT W L (d + 2)) L (.define [name! "i"] (.cons (.num 1) .nil)) (lookupEnv p first v len) =
      .ok (.next (loopEnv p first v len 1)) := by
    simp only [lookupEnv, loopEnv, go_exec, defineAs_lit hW, Nat.reduceLT, Nat.reducePow]
  rw [continuationStmt, exec_loop, hi]
  show (loopN _ _ _ L (loopEnv p first v len 1) >>= _) = _
  rw [h, liftB_bind]
  congr 1
  funext good
  cases good <;> rfl

def Stmts.tail : Stmts → Stmts
  | .nil => .nil
  | .cons _ ss => ss
def Stmts.head : Stmts → Stmt
  | .nil => .ret .nil
  | .cons s _ => s

/-- property_table.go:48-65 -/
def switchStmt : Stmt := fn_LookupFirstChar.body.tail.tail.tail.tail.tail.head

/-- Everything in the loop body is as in the source. -/
theorem body_eq : fn_LookupFirstChar.body.tail.tail.tail.tail = .cons continuationStmt (.cons switchStmt .nil) := by kernel_rfl

include hW in
theorem run_switchStmtIn (c : Ctx) (hc : c.W = W) (indices props : PackedTable)
    (hint : ∀ v, callName c (name! "int") [v] = (convert W (.int, tyInt) v >>= fun v => .ok [v]))
    (hi : globalOrPredeclared c (name! "lookupIndices") = .ok (.arr tyU8 (tableList indices)))
    (hp : globalOrPredeclared c (name! "lookupProps") = .ok (.arr tCP (tableList props)))
    (p : Option (List UInt8)) (first : UInt8) (v : Val) (len : Nat) (hl : len = 1 ∨ len = 2 ∨ len = 3 ∨ len = 4) :
    exec c L switchStmt (lookupEnv p first v len) =
    liftB (lookupSwitchIn indices.index props.index (p.getD []) first len) fun r => .ok (.ret [.u8 tCP r.1, .int tyInt r.2]) := by
  have h63 : UInt8.ofNat 63 = 63 := rfl
  rcases hl with rfl | rfl | rfl | rfl <;>
    simp only [hc, hint, switchStmt, fn_LookupFirstChar, Stmts.tail, Stmts.head, lookupEnv, go_exec, Nat.reduceEqDiff, reduceCtorEq,
      binary_eq_lit hW, Nat.reduceLT, Nat.reducePow, beq_self_eq_true, indexOf_table, indexOf_bytes, indexValue_u8, indexValue_int, indexValue_const, liftV_bind, liftB_bind,
      hi, hp, lookupSwitchIn, liftB_assoc, liftB_ok, natCast_beq, Nat.reduceBEq, Bool.false_eq_true, binary_shl6 hW, binary_add_idx hW,
      operator_liftB_left, operator_liftB_right, Nat.reduceAdd, Nat.reduceSub, h63]

include hW in
theorem run_switchStmt (p : Option (List UInt8)) (first : UInt8) (v : Val) (len : Nat) (hl : len = 1 ∨ len = 2 ∨ len = 3 ∨ len = 4) :
    exec (ctxT W L (d + 2)) L switchStmt (lookupEnv p first v len) =
    liftB (lookupSwitch (p.getD []) first len) fun r => .ok (.ret [.u8 tCP r.1, .int tyInt r.2]) :=
  run_switchStmtIn L hW (ctxT W L (d + 2)) rfl lookupIndices lookupProps (ctxT_conv_int W L (d + 2)) (ctxT_lookupIndices W L (d + 1)) (ctxT_lookupProps W L (d + 1)) p first v len hl

/-- property_table.go:36-39 -/
def shortStmt : Stmt := fn_LookupFirstChar.body.tail.tail.tail.head

/-- property_table.go:22-34 -/
def lengthStmt : Stmt := fn_LookupFirstChar.body.tail.tail.head

theorem body_eq' : fn_LookupFirstChar.body.tail.tail =
    .cons lengthStmt (.cons shortStmt (.cons continuationStmt (.cons switchStmt .nil))) := by kernel_rfl

theorem run_shortStmt (p : Option (List UInt8)) (first : UInt8) (v : Val) (len : Nat) :
    exec (ctxT W L (d + 2)) L shortStmt (lookupEnv p first v len) =
    if (p.getD []).length < len then .ok (.ret [.u8 tCP zeroProperties, .const (0 : Nat)])
    else .ok (.next (lookupEnv p first v len)) := by
  simp only [shortStmt, fn_LookupFirstChar, Stmts.tail, Stmts.head, lookupEnv, go_exec, Nat.reduceEqDiff, reduceCtorEq, binary_lt_int,
    decide_eq_true_eq, Int.ofNat_lt, Nat.reduceAdd, Nat.reduceSub]

/-- What the code after the determination of the length does. -/
theorem run_tail (hW : 32 ≤ W) (hL : 4 ≤ L) (p : Option (List UInt8)) (first : UInt8) (v : Val) (len : Nat)
    (hl : len = 1 ∨ len = 2 ∨ len = 3 ∨ len = 4) :
    execs (ctxT W L (d + 2)) L (.cons shortStmt (.cons continuationStmt (.cons switchStmt .nil))) (lookupEnv p first v len) =
    if (p.getD []).length < len then .ok (.ret [.u8 tCP zeroProperties, .const (0 : Nat)])
    else liftB (continuationLoop (p.getD []) 1 (len - 1)) fun good =>
      if !good then .ok (.ret [.u8 tCP ErrorProps, .const (1 : Nat)])
      else liftB (lookupSwitch (p.getD []) first len) fun r => .ok (.ret [.u8 tCP r.1, .int tyInt r.2]) := by
  simp only [execs_cons', run_shortStmt L d, bind_ite, bind_ok, andThen_ret, andThen_next,
    run_continuationStmt L d hW p first v len (by omega) (by omega) (by omega), liftB_bind, run_switchStmt L d hW p first v len hl, execs_nil]
  split
  · rfl
  · congr 1
    funext good
    cases good <;> rfl

include hW in
theorem run_lengthStmt (p : Option (List UInt8)) (first : UInt8) (v : Val) :
    exec (ctxT W L (d + 2)) L lengthStmt (lookupEnv p first v 0) =
    match seqLength first with
    | none => .ok (.ret [.u8 tCP ErrorProps, .const (1 : Nat)])
    | some len => .ok (.next (lookupEnv p first v len)) := by
  simp only [lengthStmt, fn_LookupFirstChar, Stmts.tail, Stmts.head, lookupEnv, go_exec, Nat.reduceEqDiff, reduceCtorEq,
    Nat.reduceAdd, Nat.reduceSub, Nat.reduceLT, Nat.reducePow, assignTo_lit hW, seqLength]
  by_cases h1 : first < 128
  · rw [if_pos h1, if_pos (by simpa using h1)]
  · rw [if_neg h1, if_neg (by simpa using h1)]
    by_cases h2 : ((first &&& 0b11100000) == 0b11000000) = true
    · rw [if_pos h2]; exact if_pos h2
    · rw [if_neg h2]; refine (if_neg h2).trans ?_
      by_cases h3 : ((first &&& 0b11110000) == 0b11100000) = true
      · rw [if_pos h3]; exact if_pos h3
      · rw [if_neg h3]; refine (if_neg h3).trans ?_
        by_cases h4 : ((first &&& 0b11111000) == 0b11110000) = true
        · rw [if_pos h4]; exact if_pos h4
        · rw [if_neg h4]; exact if_neg h4

theorem seqLength_cases (first : UInt8) (len : Nat) (h : seqLength first = some len) : len = 1 ∨ len = 2 ∨ len = 3 ∨ len = 4 := by
  unfold seqLength at h
  grind

include hW in
theorem run_LookupFirstChar (hL : 4 ≤ L) (p : Option (List UInt8)) :
    run library W L (d + 3) (.func (name! "charprops") (name! "LookupFirstChar") [.bytes p]) =
    lift (fun r => [.u8 tCP r.1, .int tyInt r.2]) (LookupFirstChar (p.getD [])) := by
  show callWith (ctxT W L (d + 2)) L fn_LookupFirstChar none [.bytes p] = _
  have hbody : fn_LookupFirstChar.body = .cons fn_LookupFirstChar.body.head (.cons fn_LookupFirstChar.body.tail.head
    (.cons lengthStmt (.cons shortStmt (.cons continuationStmt (.cons switchStmt .nil))))) := by kernel_rfl
  have hcall : ∀ o, execs (ctxT W L (d + 2)) L fn_LookupFirstChar.body [(name! "p", .bytes p), (name! "props", .u8 tCP 0), (name! "length", .int tyInt (0 : Nat))] = o →
      callWith (ctxT W L (d + 2)) L fn_LookupFirstChar none [.bytes p] =
      (o >>= fun o => match o with
        | .ret vs => results (ctxT W L (d + 2)) fn_LookupFirstChar.results vs
        | .next _ => stuck) := by
    intro o ho
    subst ho
    kernel_rfl
  have hres : ∀ x (n : Nat), n < 2 ^ 31 → results (ctxT W L (d + 2)) fn_LookupFirstChar.results [.u8 tCP x, .const n] = .ok [.u8 tCP x, .int tyInt n] := by
    intro x n hn
    simp only [fn_LookupFirstChar, go_exec, assignTo_lit hW _ n hn]
  have hres' : ∀ x (n : Nat), results (ctxT W L (d + 2)) fn_LookupFirstChar.results [.u8 tCP x, .int tyInt n] = .ok [.u8 tCP x, .int tyInt n] := by
    intro x n
    simp only [fn_LookupFirstChar, go_exec]
  cases hp : p.getD [] with
  | nil =>
    rw [hcall (.ok (.ret [.u8 tCP zeroProperties, .const (0 : Nat)]))]
    · exact hres _ 0 (by decide)
    · simp only [fn_LookupFirstChar, go_exec, Nat.reduceEqDiff, reduceCtorEq, hp, binary_eq_lit hW, Nat.reduceLT, Nat.reducePow,
        beq_self_eq_true]
  | cons first rest =>
    have hne : ((((p.getD []).length : Nat) : Int) == ((0 : Nat) : Int)) = false := by
      rw [natCast_beq, hp, beq_eq_false_iff_ne]; simp
    have hi : goIndex (p.getD []) 0 = .ok first := by rw [hp]; rfl
    have hstart : execs (ctxT W L (d + 2)) L fn_LookupFirstChar.body [(name! "p", .bytes p), (name! "props", .u8 tCP 0), (name! "length", .int tyInt (0 : Nat))] =
        execs (ctxT W L (d + 2)) L (.cons lengthStmt (.cons shortStmt (.cons continuationStmt (.cons switchStmt .nil)))) (lookupEnv p first (.u8 tCP 0) 0) := by
      have h1 : exec (ctxT W L (d + 2)) L fn_LookupFirstChar.body.head [(name! "p", .bytes p), (name! "props", .u8 tCP 0), (name! "length", .int tyInt (0 : Nat))] =
          .ok (.next [(name! "p", .bytes p), (name! "props", .u8 tCP 0), (name! "length", .int tyInt (0 : Nat))]) := by
        simp only [fn_LookupFirstChar, Stmts.head, go_exec, Nat.reduceEqDiff, reduceCtorEq, binary_eq_lit hW, Nat.reduceLT, Nat.reducePow,
          hne, Bool.false_eq_true, Nat.reduceAdd, Nat.reduceSub]
      have h2 : exec (ctxT W L (d + 2)) L fn_LookupFirstChar.body.tail.head [(name! "p", .bytes p), (name! "props", .u8 tCP 0), (name! "length", .int tyInt (0 : Nat))] =
          .ok (.next (lookupEnv p first (.u8 tCP 0) 0)) := by
        simp only [fn_LookupFirstChar, Stmts.tail, Stmts.head, go_exec, Nat.reduceEqDiff, reduceCtorEq, indexOf_bytes, indexValue_const, hi,
          liftV_bind, liftB_ok, lookupEnv]
      rw [hbody, execs_cons', h1]
      show execs _ _ (.cons _ _) _ = _
      rw [execs_cons', h2]
      rfl
    rw [hcall _ hstart, execs_cons', run_lengthStmt L d hW, ← hp]
    have hR : LookupFirstChar (p.getD []) = (match seqLength first with
        | none => .ok (ErrorProps, 1)
        | some length =>
          if (p.getD []).length < length then .ok (zeroProperties, 0)
          else do
            let good ← continuationLoop (p.getD []) 1 (length - 1)
            if !good then .ok (ErrorProps, 1)
            else lookupSwitch (p.getD []) first length) := by
      rw [hp]; rfl
    rw [hR]
    cases hs : seqLength first with
    | none => exact hres _ 1 (by decide)
    | some len =>
      show (execs _ _ _ (lookupEnv p first (.u8 tCP 0) len) >>= _) = lift _ (if (p.getD []).length < len then _ else _)
      rw [run_tail L d hW hL p first (.u8 tCP 0) len (seqLength_cases first len hs)]
      by_cases hlt : (p.getD []).length < len
      · rw [if_pos hlt, if_pos hlt]
        exact hres _ 0 (by decide)
      · rw [if_neg hlt, if_neg hlt, liftB_bind, lift_bind]
        congr 1
        funext good
        cases good with
        | false => exact hres _ 1 (by decide)
        | true =>
          show (liftB (lookupSwitch (p.getD []) first len) _ >>= _) = lift _ (lookupSwitch (p.getD []) first len)
          rw [liftB_bind]
          cases lookupSwitch (p.getD []) first len with
          | error e => rfl
          | ok r => exact hres' r.1 r.2

end Textseg.GoLang
