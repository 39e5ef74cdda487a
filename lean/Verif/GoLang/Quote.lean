import Verif.GoLang.Parser
import Verif.Text.GraphemeClustersGo
import Verif.Text.StateGo
import Verif.Text.PropertyTableGo
import Verif.Text.PropertiesGo
import Verif.Text.TableText
import Lean.Elab.Tactic
import Lean.ToExpr
/-!
# Tools: syntax trees as terms, and checking of equations by the kernel alone

`go_file! n` is the syntax tree that the parser finds in text number `n`, as a term. It is computed by running the parser while the
module is compiled, and nothing depends on this being right: that the parser finds this tree is a theorem
(`Proofs/Source.lean`). `kernel_rfl` proves an equation whose two sides have the same normal form; only the kernel checks it.
-/

namespace Textseg.GoLang
open Lean Elab Term Meta

def natE (n : Nat) : Lean.Expr := mkNatLit n

def tyE : Ty → Lean.Expr
  | .name x => mkApp (mkConst ``Ty.name) (natE x)
  | .qual p x => mkApp2 (mkConst ``Ty.qual) (natE p) (natE x)
  | .slice t => mkApp (mkConst ``Ty.slice) (tyE t)
  | .array t => mkApp (mkConst ``Ty.array) (tyE t)

def opE : BinOp → Lean.Expr
  | .lor => mkConst ``BinOp.lor | .land => mkConst ``BinOp.land | .eq => mkConst ``BinOp.eq | .ne => mkConst ``BinOp.ne
  | .lt => mkConst ``BinOp.lt | .le => mkConst ``BinOp.le | .gt => mkConst ``BinOp.gt | .ge => mkConst ``BinOp.ge
  | .add => mkConst ``BinOp.add | .sub => mkConst ``BinOp.sub | .or => mkConst ``BinOp.or | .mul => mkConst ``BinOp.mul
  | .shl => mkConst ``BinOp.shl | .and => mkConst ``BinOp.and

def listE (t : Lean.Expr) : List Lean.Expr → Lean.Expr
  | [] => mkApp (mkConst ``List.nil [.zero]) t
  | x :: xs => mkApp3 (mkConst ``List.cons [.zero]) t x (listE t xs)

def natT : Lean.Expr := mkConst ``Nat
def tyT : Lean.Expr := mkConst ``Ty
def pairT : Lean.Expr := mkApp2 (mkConst ``Prod [.zero, .zero]) natT tyT
def pairE (p : Nat × Ty) : Lean.Expr := mkApp4 (mkConst ``Prod.mk [.zero, .zero]) natT tyT (natE p.1) (tyE p.2)

mutual
partial def exprE : Expr → Lean.Expr
  | .ident x => mkApp (mkConst ``Expr.ident) (natE x)
  | .num n => mkApp (mkConst ``Expr.num) (natE n)
  | .str n => mkApp (mkConst ``Expr.str) (natE n)
  | .sel e x => mkApp2 (mkConst ``Expr.sel) (exprE e) (natE x)
  | .call f args => mkApp2 (mkConst ``Expr.call) (exprE f) (exprsE args)
  | .index e i => mkApp2 (mkConst ``Expr.index) (exprE e) (exprE i)
  | .sliceFrom e i => mkApp2 (mkConst ``Expr.sliceFrom) (exprE e) (exprE i)
  | .sliceTo e i => mkApp2 (mkConst ``Expr.sliceTo) (exprE e) (exprE i)
  | .bin op a b => mkApp3 (mkConst ``Expr.bin) (opE op) (exprE a) (exprE b)
  | .comp t es => mkApp2 (mkConst ``Expr.comp) (tyE t) (exprsE es)
partial def exprsE : Exprs → Lean.Expr
  | .nil => mkConst ``Exprs.nil
  | .cons e es => mkApp2 (mkConst ``Exprs.cons) (exprE e) (exprsE es)
end

mutual
partial def stmtE : Stmt → Lean.Expr
  | .define xs es => mkApp2 (mkConst ``Stmt.define) (listE natT (xs.map natE)) (exprsE es)
  | .assign x e => mkApp2 (mkConst ``Stmt.assign) (natE x) (exprE e)
  | .opAssign op x e => mkApp3 (mkConst ``Stmt.opAssign) (opE op) (natE x) (exprE e)
  | .expr e => mkApp (mkConst ``Stmt.expr) (exprE e)
  | .ret es => mkApp (mkConst ``Stmt.ret) (exprsE es)
  | .ifThen c t e => mkApp3 (mkConst ``Stmt.ifThen) (exprE c) (stmtsE t) (stmtsE e)
  | .forever b => mkApp (mkConst ``Stmt.forever) (stmtsE b)
  | .loop i c p b => mkApp4 (mkConst ``Stmt.loop) (stmtE i) (exprE c) (stmtE p) (stmtsE b)
  | .switch t cs => mkApp2 (mkConst ``Stmt.switch) (exprE t) (clausesE cs)
  | .switchTrue cs => mkApp (mkConst ``Stmt.switchTrue) (clausesE cs)
partial def stmtsE : Stmts → Lean.Expr
  | .nil => mkConst ``Stmts.nil
  | .cons s ss => mkApp2 (mkConst ``Stmts.cons) (stmtE s) (stmtsE ss)
partial def clausesE : Clauses → Lean.Expr
  | .nil => mkConst ``Clauses.nil
  | .case es b r => mkApp3 (mkConst ``Clauses.case) (exprsE es) (stmtsE b) (clausesE r)
  | .dflt b r => mkApp2 (mkConst ``Clauses.dflt) (stmtsE b) (clausesE r)
end

def optionE (t : Lean.Expr) : Option Lean.Expr → Lean.Expr
  | none => mkApp (mkConst ``Option.none [.zero]) t
  | some x => mkApp2 (mkConst ``Option.some [.zero]) t x

def funcE (f : Func) : Lean.Expr :=
  mkApp5 (mkConst ``Func.mk) (optionE pairT (f.recv.map pairE)) (natE f.name) (listE pairT (f.params.map pairE))
    (listE pairT (f.results.map pairE)) (stmtsE f.body)

def declE : Decl → Lean.Expr
  | .func f => mkApp (mkConst ``Decl.func) (funcE f)
  | .const x t e i => mkApp4 (mkConst ``Decl.const) (natE x) (optionE tyT (t.map tyE)) (exprE e) (natE i)
  | .varZero x t => mkApp2 (mkConst ``Decl.varZero) (natE x) (tyE t)
  | .var x e => mkApp2 (mkConst ``Decl.var) (natE x) (exprE e)
  | .type x t => mkApp2 (mkConst ``Decl.type) (natE x) (tyE t)

def fileE (f : File) : Lean.Expr :=
  mkApp3 (mkConst ``File.mk) (natE f.pkg) (listE natT (f.imports.map natE)) (listE (mkConst ``Decl) (f.decls.map declE))

/-- The texts. -/
def sources : List (List (List Nat)) := [Text.graphemeClustersGo, Text.stateGo, Text.propertyTableGo, Text.propertiesGo, Text.tableText]

/-- The syntax tree of text number `n`. -/
def sourceFile (n : Nat) : TermElabM File := do
  match sources[n]?.bind fun t => parseSource t.flatten with
  | some f => return f
  | none => throwError "the parser fails"

/-- The syntax tree of text number `n`, as a term. -/
elab "go_file! " n:num : term => return fileE (← sourceFile n.getNat)

/-- Declaration number `i` of text number `n`, as a term. -/
elab "go_decl! " n:num i:num : term => do
  match (← sourceFile n.getNat).decls[i.getNat]? with
  | some d => return declE d
  | none => throwError "no such declaration"

/-- The function of declaration number `i` of text number `n`, as a term. -/
elab "go_func! " n:num i:num : term => do
  match (← sourceFile n.getNat).decls[i.getNat]? with
  | some (.func f) => return funcE f
  | _ => throwError "no such function"

/-- Proves `a = b` by `Eq.refl a`, which is checked by the kernel only. -/
elab "kernel_rfl" : tactic => do
  let g ← Tactic.getMainGoal
  let t ← instantiateMVars (← g.getType)
  match t.consumeMData.eq? with
  | some (ty, a, _) =>
    let u ← getLevel ty
    g.assign (mkApp2 (mkConst ``Eq.refl [u]) ty a)
  | none => throwError "not an equation"

end Textseg.GoLang
