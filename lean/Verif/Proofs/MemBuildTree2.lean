import Verif.Proofs.MemBuildTree
/-!
# The code of `BuildRawPropertyTree` does what the model says: the loops over ranges
-/

namespace Textseg.GoMem
open Textseg.GoLang (TyId tyInt tyU8 Halt importName wrap)
set_option linter.unusedSimpArgs false

/-- `for ; cond; post { body }`, at most `n` iterations. -/
def forLoop (c : Ctx) (L : Nat) (cond : Expr) (post : Stmt) (body : Stmts) (n : Nat) (env : Env) (h : Heap) : Except Halt (Out × Heap) :=
  loopN (fun env => do
      let v ← eval c env cond
      boolValue v) (fun env => do
      let o ← execs c L body env.length env
      pure (leave env.length o)) (fun env => exec c L post env.length env) n env h

/-- What follows the statement after an iteration. -/
def forAgain (c : Ctx) (L : Nat) (cond : Expr) (post : Stmt) (body : Stmts) (n : Nat) : Out → Heap → Except Halt (Out × Heap)
  | .next env, h => forLoop c L cond post body n env h
  | _, _ => .error .stuck

/-- What follows an iteration. -/
def forNext (c : Ctx) (L : Nat) (cond : Expr) (post : Stmt) (body : Stmts) (n : Nat) : Out → Heap → Except Halt (Out × Heap)
  | .ret vs, h => .ok (.ret vs, h)
  | .brk env, h => .ok (.next env, h)
  | .next env, h => bindR (exec c L post env.length env h) (forAgain c L cond post body n)
  | .cont env, h => bindR (exec c L post env.length env h) (forAgain c L cond post body n)

section
variable (c : Ctx) (env : Env) (L base : Nat) (h : Heap)
theorem forLoop_succ (cond : Expr) (post : Stmt) (body : Stmts) (n : Nat) : forLoop c L cond post body (n + 1) env h =
    bindR (eval c env cond h) fun v h => bindR (boolValue v h) fun b h =>
      if b then bindR (execs c L body env.length env h) fun o h => forNext c L cond post body n (leave env.length o) h
      else .ok (.next env, h) := by
  unfold forLoop
  rw [loopN, bind_apply, bind_apply, bindR_assoc]
  refine bindR_ext _ fun v h => bindR_ext _ fun b h => ?_
  cases b with
  | false => rfl
  | true =>
    simp only [if_true, bind_apply, bindR_assoc]
    refine bindR_ext _ fun o h => ?_
    rw [pure_apply, bindR_ok]
    cases leave env.length o with
    | ret => rfl
    | brk => rfl
    | next env =>
      refine bindR_ext _ fun o h => ?_
      cases o <;> rfl
    | cont env =>
      refine bindR_ext _ fun o h => ?_
      cases o <;> rfl
theorem exec_for (xs : List Nat) (es : Exprs) (op : BinOp) (a b : Expr) (post : Stmt) (body : Stmts) :
    exec c L (.loop (.define xs es) (.bin op a b) post body) base env h =
    bindR (exec c L (.define xs es) env.length env h) fun o h =>
      (match o with
      | .next env' => fun h => bindR (forLoop c L (.bin op a b) post body L env' h) fun o h => .ok (leave env.length o, h)
      | _ => fun _ => .error .stuck) h := by
  rw [exec, bind_apply]
  refine bindR_ext _ fun o h => ?_
  cases o <;> rfl
end

/-- The condition `r < entry.End` -/
def condR : Expr := .bin .lt (.ident (name! "r")) (.sel (.ident (name! "entry")) (name! "End"))
/-- `r++` -/
def postR : Stmt := .opAssign .add (.ident (name! "r")) (.num 1)
/-- `tip.f(r, uint8(prop))` -/
def bodyR (f : Nat) : Stmts := .cons (.expr (.call (.sel (.ident (name! "tip")) f)
  (.cons (.ident (name! "r")) (.cons (.call (.ident (name! "uint8")) (.cons (.ident (name! "prop")) .nil)) .nil)))) .nil
/-- The loop over the characters of an entry. -/
def loopR (f : Nat) : Stmt := .loop (.define [name! "r"] (.cons (.sel (.ident (name! "entry")) (name! "Start")) .nil)) condR postR (bodyR f)

/-- The fields of an entry. -/
def entryFields (s e : Int32) (o : Option Sl) : List (Nat × Val) :=
  [(name! "Start", .rune tyRune s), (name! "End", .rune tyRune e), (name! "Fields", .slice tFields tB o)]

/-- The variables that the loop uses. -/
structure EnvR (env : Env) (ae p : Nat) (t0 : TyId) (v : UInt8) : Prop where
  entry : env.get (name! "entry") = some (.cell tEntry ae)
  tip : env.get (name! "tip") = some (.ptr tTree p)
  prop : env.get (name! "prop") = some (.u8 t0 v)
  uint8 : env.get (name! "uint8") = none

section
variable (m : Machine) (L d : Nat) (h : Heap)
@[mem_exec] theorem callName_uint8 (v : Val) : callName (ctx m L d) (name! "uint8") [v] h =
    bindR (convert m.W tB v h) fun v h => .ok ([v], h) := by kernel_rfl
@[mem_exec ↓] theorem operator_lt (W : Nat) (x y : M Val) : operator W .lt x y h = bindR (x h) fun v h => bindR (y h) fun w h => binary W .lt v w h :=
  operator_strict W h _ x y (fun h => (by cases h)) (fun h => (by cases h))
theorem convert_u8 (W : Nat) (t : TyId) (v : UInt8) : convert W tB (.u8 t v) h = .ok (.u8 tyU8 v, h) := rfl

variable {env : Env} {ae p : Nat} {t0 : TyId} {v : UInt8} (he : EnvR env ae p t0 v)
include he

theorem cond_eq (r s e : Int32) (o : Option Sl) (hae : h[ae]? = some (.struct tEntry (entryFields s e o))) :
    eval (ctx m L d) ((name! "r", .rune tyRune r) :: env) condR h = .ok (.bool (decide (r < e)), h) := by
  have hld := load_some hae
  simp [mem_exec, condR, he.entry, loadStruct, hld, entryFields]

theorem post_eq (r : Int32) (n : Nat) :
    exec (ctx m L d) L postR n ((name! "r", .rune tyRune r) :: env) h = .ok (.next ((name! "r", .rune tyRune (r + 1)) :: env), h) := by
  simp [mem_exec, postR]

theorem bodySet_eq (r : Int32) (n : Nat) :
    execs (ctx m L d) L (bodyR (name! "Set")) n ((name! "r", .rune tyRune r) :: env) h =
      bindR (R m L d (.method (.ptr tTree p) (name! "Set") [.rune tyRune r, .u8 tyU8 v]) h) fun _ h => .ok (.next ((name! "r", .rune tyRune r) :: env), h) := by
  simp [mem_exec, bodyR, he.tip, he.prop, he.uint8, convert_u8]
  rw [bindR_assoc]; rfl
theorem bodyOr_eq (r : Int32) (n : Nat) :
    execs (ctx m L d) L (bodyR (name! "BitwiseOr")) n ((name! "r", .rune tyRune r) :: env) h =
      bindR (R m L d (.method (.ptr tTree p) (name! "BitwiseOr") [.rune tyRune r, .u8 tyU8 v]) h) fun _ h => .ok (.next ((name! "r", .rune tyRune r) :: env), h) := by
  simp [mem_exec, bodyR, he.tip, he.prop, he.uint8, convert_u8]
  rw [bindR_assoc]; rfl
end

theorem succ_toInt {r e : Int32} (h : r < e) : (r + 1).toInt = r.toInt + 1 := by
  have h1 : r.toInt < e.toInt := Int32.lt_iff_toInt_lt.mp h
  have h2 := e.toInt_lt
  have h3 := r.le_toInt
  rw [Int32.toInt_add]
  exact Int.bmod_eq_of_le (by simp; omega) (by simp; omega)

open Textseg.Gen Textseg.Spec in
/-- The loop over the characters of an entry. -/
theorem rune_loop (m : Machine) (hW : 32 ≤ m.W) (L d : Nat) {env : Env} {ae p : Nat} {t0 : TyId} {v : UInt8} (he : EnvR env ae p t0 v) (f : Nat) (mk : Int32 → TableOp)
    (hbody : ∀ r n h, execs (ctx m L (d + 5)) L (bodyR f) n ((name! "r", .rune tyRune r) :: env) h =
      bindR (R m L (d + 5) (opCall (.ptr tTree p) (mk r)) h) fun _ h => .ok (.next ((name! "r", .rune tyRune r) :: env), h))
    (s e : Int32) (o : Option Sl) : ∀ (n k : Nat) (r : Int32) (h : Heap) (x : Loc) (t : Tree) (ops : List TableOp) (IB : List (List Nat)) (PB : List Nat),
    n = (e.toInt - r.toInt).toNat → n + 1 ≤ k → TreeAt h p x t → OpsInv ops t IB PB → h[ae]? = some (.struct tEntry (entryFields s e o)) →
    match forRange (fun t r => runOp t (mk r)) n r t with
    | .ok t' => ∃ h' x' r', forLoop (ctx m L (d + 5)) L condR postR (bodyR f) k ((name! "r", .rune tyRune r) :: env) h =
          .ok (.next ((name! "r", .rune tyRune r') :: env), h') ∧ TreeAt h' p x' t' ∧ Moves p h x h' x' ∧ ∃ ops IB PB, OpsInv ops t' IB PB
    | .error _ => ∃ er, forLoop (ctx m L (d + 5)) L condR postR (bodyR f) k ((name! "r", .rune tyRune r) :: env) h = .error (.panic er) := by
  intro n
  induction n with
  | zero =>
    intro k r h x t ops IB PB hn hk ht hv hae
    obtain ⟨k, rfl⟩ : ∃ j, k = j + 1 := ⟨k - 1, by omega⟩
    have hlt : ¬ r < e := by
      intro hlt
      have : r.toInt < e.toInt := Int32.lt_iff_toInt_lt.mp hlt
      omega
    refine ⟨h, x, r, ?_, ht, Moves.refl _ _ _, ops, IB, PB, hv⟩
    rw [forLoop_succ, cond_eq m L _ h he r s e o hae]
    simp [mem_exec, hlt]
  | succ n ih =>
    intro k r h x t ops IB PB hn hk ht hv hae
    obtain ⟨k, rfl⟩ : ∃ j, k = j + 1 := ⟨k - 1, by omega⟩
    have hlt : r < e := by
      rw [Int32.lt_iff_toInt_lt]
      omega
    have l1 := hv.inv.lengthI
    have l2 := hv.inv.lengthP
    have hs := op_spec m hW L d p (mk r) h x t ht (by rw [hv.inv.lenI]; omega) (by rw [hv.inv.lenP]; omega)
    rw [forLoop_succ, cond_eq m L _ h he r s e o hae]
    simp only [bindR_ok, boolValue_bool, hlt, decide_true, if_true]
    rw [hbody, bindR_assoc]
    rw [forRange]
    rcases runOp_spec hv (mk r) with ⟨_, h2⟩ | ⟨_, t', IB', PB', h2, h3⟩
    · rw [h2] at hs
      obtain ⟨er, hs⟩ := hs
      simp only [bind, Except.bind, h2]
      exact ⟨er, by rw [hs]; rfl⟩
    · rw [h2] at hs
      obtain ⟨h', x', hs, ht', hm⟩ := hs
      simp only [bind, Except.bind, h2]
      rw [hs]
      simp only [bindR_ok, leave_next, List.length_cons, Nat.sub_self, List.drop_zero, forNext]
      rw [post_eq m L _ h' he r]
      simp only [bindR_ok, forAgain]
      have hap : ae ≠ p := by
        rintro rfl
        rw [ht.obj] at hae
        cases hae
      have haP : ae ≠ x.aP := by rintro rfl; rw [ht.props] at hae; cases hae
      have haI : ae ≠ x.aI := by rintro rfl; rw [ht.inds] at hae; cases hae
      have hae' : h'[ae]? = some (.struct tEntry (entryFields s e o)) := by
        rw [hm.keep ae (lt_of_some hae) hap haP haI]; exact hae
      have := ih k (r + 1) h' x' t' _ IB' PB' (by rw [succ_toInt hlt]; omega) (by omega) ht' h3 hae'
      rcases hr : forRange (fun t r => runOp t (mk r)) n (r + 1) t' with er | t''
      · rw [hr] at this; exact this
      · rw [hr] at this
        obtain ⟨h'', x'', r', e1, e2, e3, e4⟩ := this
        exact ⟨h'', x'', r', e1, e2, hm.trans e3, e4⟩

end Textseg.GoMem
