import Verif.GoLang.Quote
import Verif.GoMem.Parser
import Verif.Text.GentableGo
import Verif.Text.PropertyTreeGo
import Verif.Text.UcdScanGo
import Verif.Text.TestdataScanGo
import Verif.Text.PropertiesGo
import Verif.Text.GenerateGo
/-!
# Tools: syntax trees of the generator as terms

As in `GoLang/Quote.lean`: nothing depends on these being right, since it is a theorem that the parser finds these trees
(`Proofs/MemSource.lean`).
-/

namespace Textseg.GoMem
open Lean Elab Term Meta
open Textseg.GoLang (natE listE natT optionE)

def lenE : Len → Lean.Expr
  | .num n => mkApp (mkConst ``Len.num) (natE n)
  | .name n => mkApp (mkConst ``Len.name) (natE n)
  | .mul a b => mkApp2 (mkConst ``Len.mul) (lenE a) (lenE b)

def tyE : Ty → Lean.Expr
  | .name x => mkApp (mkConst ``Ty.name) (natE x)
  | .qual p x => mkApp2 (mkConst ``Ty.qual) (natE p) (natE x)
  | .slice t => mkApp (mkConst ``Ty.slice) (tyE t)
  | .array n t => mkApp2 (mkConst ``Ty.array) (lenE n) (tyE t)
  | .ptr t => mkApp (mkConst ``Ty.ptr) (tyE t)
  | .map k v => mkApp2 (mkConst ``Ty.map) (tyE k) (tyE v)
  | .fn => mkConst ``Ty.fn
  | .inst p x t => mkApp3 (mkConst ``Ty.inst) (natE p) (natE x) (tyE t)

def opE : BinOp → Lean.Expr
  | .lor => mkConst ``BinOp.lor | .land => mkConst ``BinOp.land | .eq => mkConst ``BinOp.eq | .ne => mkConst ``BinOp.ne
  | .lt => mkConst ``BinOp.lt | .le => mkConst ``BinOp.le | .gt => mkConst ``BinOp.gt | .ge => mkConst ``BinOp.ge
  | .add => mkConst ``BinOp.add | .sub => mkConst ``BinOp.sub | .or => mkConst ``BinOp.or | .mul => mkConst ``BinOp.mul
  | .rem => mkConst ``BinOp.rem | .shl => mkConst ``BinOp.shl | .shr => mkConst ``BinOp.shr | .and => mkConst ``BinOp.and

def tyT : Lean.Expr := mkConst ``Ty
def pairT : Lean.Expr := mkApp2 (mkConst ``Prod [.zero, .zero]) natT tyT
def pairE (p : Nat × Ty) : Lean.Expr := mkApp4 (mkConst ``Prod.mk [.zero, .zero]) natT tyT (natE p.1) (tyE p.2)
def pairsE (ps : List (Nat × Ty)) : Lean.Expr := listE pairT (ps.map pairE)

mutual
partial def exprE : Expr → Lean.Expr
  | .ident x => mkApp (mkConst ``Expr.ident) (natE x)
  | .num n => mkApp (mkConst ``Expr.num) (natE n)
  | .str n => mkApp (mkConst ``Expr.str) (natE n)
  | .sel e x => mkApp2 (mkConst ``Expr.sel) (exprE e) (natE x)
  | .call f args => mkApp2 (mkConst ``Expr.call) (exprE f) (exprsE args)
  | .callSpread f args => mkApp2 (mkConst ``Expr.callSpread) (exprE f) (exprsE args)
  | .index e i => mkApp2 (mkConst ``Expr.index) (exprE e) (exprE i)
  | .slice e l h => mkApp3 (mkConst ``Expr.slice) (exprE e) (exprE l) (exprE h)
  | .bin op a b => mkApp3 (mkConst ``Expr.bin) (opE op) (exprE a) (exprE b)
  | .not e => mkApp (mkConst ``Expr.not) (exprE e)
  | .addr e => mkApp (mkConst ``Expr.addr) (exprE e)
  | .deref e => mkApp (mkConst ``Expr.deref) (exprE e)
  | .comp t es => mkApp2 (mkConst ``Expr.comp) (tyE t) (exprsE es)
  | .keyed x e => mkApp2 (mkConst ``Expr.keyed) (natE x) (exprE e)
  | .ty t => mkApp (mkConst ``Expr.ty) (tyE t)
  | .funcLit ps rs b => mkApp3 (mkConst ``Expr.funcLit) (pairsE ps) (pairsE rs) (stmtsE b)
  | .omitted => mkConst ``Expr.omitted
partial def exprsE : Exprs → Lean.Expr
  | .nil => mkConst ``Exprs.nil
  | .cons e es => mkApp2 (mkConst ``Exprs.cons) (exprE e) (exprsE es)
partial def stmtE : Stmt → Lean.Expr
  | .define xs es => mkApp2 (mkConst ``Stmt.define) (listE natT (xs.map natE)) (exprsE es)
  | .assign ls es => mkApp2 (mkConst ``Stmt.assign) (exprsE ls) (exprsE es)
  | .opAssign op l e => mkApp3 (mkConst ``Stmt.opAssign) (opE op) (exprE l) (exprE e)
  | .varDecl xs t => mkApp2 (mkConst ``Stmt.varDecl) (listE natT (xs.map natE)) (tyE t)
  | .expr e => mkApp (mkConst ``Stmt.expr) (exprE e)
  | .ret es => mkApp (mkConst ``Stmt.ret) (exprsE es)
  | .ifThen i c t e => mkApp4 (mkConst ``Stmt.ifThen) (stmtE i) (exprE c) (stmtsE t) (stmtsE e)
  | .loop i c p b => mkApp4 (mkConst ``Stmt.loop) (stmtE i) (exprE c) (stmtE p) (stmtsE b)
  | .range k v e b => mkApp4 (mkConst ``Stmt.range) (natE k) (natE v) (exprE e) (stmtsE b)
  | .switch t cs => mkApp2 (mkConst ``Stmt.switch) (exprE t) (clausesE cs)
  | .block b => mkApp (mkConst ``Stmt.block) (stmtsE b)
  | .brk => mkConst ``Stmt.brk
  | .cont => mkConst ``Stmt.cont
  | .skip => mkConst ``Stmt.skip
partial def stmtsE : Stmts → Lean.Expr
  | .nil => mkConst ``Stmts.nil
  | .cons s ss => mkApp2 (mkConst ``Stmts.cons) (stmtE s) (stmtsE ss)
partial def clausesE : Clauses → Lean.Expr
  | .nil => mkConst ``Clauses.nil
  | .case es b r => mkApp3 (mkConst ``Clauses.case) (exprsE es) (stmtsE b) (clausesE r)
  | .dflt b r => mkApp2 (mkConst ``Clauses.dflt) (stmtsE b) (clausesE r)
end

def funcE (f : Func) : Lean.Expr :=
  mkApp5 (mkConst ``Func.mk) (optionE pairT (f.recv.map pairE)) (natE f.name) (pairsE f.params) (pairsE f.results) (stmtsE f.body)

def declE : Decl → Lean.Expr
  | .func f => mkApp (mkConst ``Decl.func) (funcE f)
  | .const x t e i => mkApp4 (mkConst ``Decl.const) (natE x) (optionE tyT (t.map tyE)) (exprE e) (natE i)
  | .varZero x t => mkApp2 (mkConst ``Decl.varZero) (natE x) (tyE t)
  | .var x e => mkApp2 (mkConst ``Decl.var) (natE x) (exprE e)
  | .type x t => mkApp2 (mkConst ``Decl.type) (natE x) (tyE t)
  | .struct x fs => mkApp2 (mkConst ``Decl.struct) (natE x) (pairsE fs)

def fileE (f : File) : Lean.Expr :=
  mkApp3 (mkConst ``File.mk) (natE f.pkg) (listE natT (f.imports.map natE)) (listE (mkConst ``Decl) (f.decls.map declE))

/-- The texts. -/
def texts : List (List (List Nat)) := [Text.gentableGo, Text.propertyTreeGo, Text.ucdScanGo, Text.testdataScanGo, Text.propertiesGo,
  Text.generateGo]

/-- The syntax tree of text number `n`. -/
def sourceFile (n : Nat) : TermElabM File := do
  match texts[n]?.bind fun t => parseSource t.flatten with
  | some f => return f
  | none => throwError "the parser fails"

/-- Declaration number `i` of text number `n`, as a term. -/
elab "mem_decl! " n:num i:num : term => do
  match (← sourceFile n.getNat).decls[i.getNat]? with
  | some d => return declE d
  | none => throwError "no such declaration"

/-- The function of declaration number `i` of text number `n`, as a term. -/
elab "mem_func! " n:num i:num : term => do
  match (← sourceFile n.getNat).decls[i.getNat]? with
  | some (.func f) => return funcE f
  | _ => throwError "no such function"

/-- All of text number `n`, as a term. -/
elab "mem_file! " n:num : term => return fileE (← sourceFile n.getNat)

end Textseg.GoMem
