import Verif.Proofs.MemBuildTree7
import Verif.Proofs.GenSize
import Verif.Model.GenMain
/-!
# The code of the command charprops/generate.go does what the model says: statements
-/

namespace Textseg.GoMem
open Textseg.GoLang (TyId tyInt tyU8 Halt importName wrap)
set_option linter.unusedSimpArgs false

/-- The context of charprops/generate.go -/
def ctxM (m : Machine) (L d : Nat) : Ctx := mkCtx gentable m (R m L d) (name! "main") fileGenerate.imports

/-- `fmt.f(&buf, s)` -/
def printS (f s : Nat) : Stmt := .expr (.call (.sel (.ident (name! "fmt")) f) (.cons (.addr (.ident (name! "buf"))) (.cons (.str s) .nil)))
/-- `fmt.Fprintf(&buf, s, e)` -/
def printfS (s : Nat) (e : Expr) : Stmt := .expr (.call (.sel (.ident (name! "fmt")) (name! "Fprintf"))
  (.cons (.addr (.ident (name! "buf"))) (.cons (.str s) (.cons e .nil))))
/-- `if err != nil { … }` -/
def dieS : Stmt := .ifThen .skip (.bin .ne (.ident (name! "err")) (.ident (name! "nil")))
  (.cons (.expr (.call (.sel (.ident (name! "fmt")) (name! "Fprintf")) (.cons (.sel (.ident (name! "os")) (name! "Stderr"))
    (.cons (.str (name! "Error: %s\n")) (.cons (.ident (name! "err")) .nil)))))
  (.cons (.expr (.call (.sel (.ident (name! "os")) (name! "Exit")) (.cons (.num 1) .nil))) .nil)) .nil
/-- The condition of a loop over rows. -/
def condX (f : Nat) : Expr := .bin .lt (.ident (name! "i")) (.call (.ident (name! "len")) (.cons (.sel (.ident (name! "tree")) f) .nil))
/-- `i += 8` -/
def postX : Stmt := .opAssign .add (.ident (name! "i")) (.num 8)
/-- The body of a loop over rows. -/
def bodyX (f : Nat) (inner : Stmts) : Stmts :=
  .cons (.ifThen .skip (.bin .eq (.bin .rem (.ident (name! "i")) (.num 64)) (.num 0))
    (.cons (printfS (name! "  // block 0x%04x\n") (.bin .shr (.ident (name! "i")) (.num 6))) .nil) .nil)
  (.cons (.define [name! "items"] (.cons (.slice (.sel (.ident (name! "tree")) f) (.ident (name! "i")) .omitted) .nil))
  (.cons (.assign (.cons (.ident (name! "items")) .nil) (.cons (.slice (.ident (name! "items")) .omitted
    (.call (.ident (name! "min")) (.cons (.call (.ident (name! "len")) (.cons (.ident (name! "items")) .nil)) (.cons (.num 8) .nil)))) .nil))
  (.cons (printS (name! "Fprint") (name! "\t"))
  (.cons (.range (name! "_") (name! "v") (.ident (name! "items")) inner)
  (.cons (printS (name! "Fprint") (name! "\n")) .nil)))))
/-- A loop over rows. -/
def loopX (f : Nat) (inner : Stmts) : Stmt := .loop (.define [name! "i"] (.cons (.num 0) .nil)) (condX f) postX (bodyX f inner)
/-- What is printed for an index. -/
def innerI : Stmts := .cons (.ifThen .skip (.bin .gt (.ident (name! "v")) (.sel (.ident (name! "math")) (name! "MaxUint8")))
    (.cons (.expr (.call (.ident (name! "panic")) (.cons (.str (name! "too many indices to use uint8")) .nil))) .nil) .nil)
  (.cons (printfS (name! "0x%02x,") (.ident (name! "v"))) .nil)
/-- What is printed for a property. -/
def innerP : Stmts := .cons (printfS (name! "0x%02x,") (.ident (name! "v"))) .nil
/-- The last statements. -/
def tailX : Stmts :=
  .cons (.define [name! "src", name! "err"] (.cons (.call (.sel (.ident (name! "format")) (name! "Source"))
    (.cons (.call (.sel (.ident (name! "buf")) (name! "Bytes")) .nil) .nil)) .nil))
  (.cons dieS
  (.cons (.define [name! "f", name! "err"] (.cons (.call (.sel (.ident (name! "os")) (name! "Create")) (.cons (.str (name! "property_table_raw.go")) .nil)) .nil))
  (.cons dieS
  (.cons (.expr (.call (.sel (.ident (name! "f")) (name! "Write")) (.cons (.ident (name! "src")) .nil))) .nil))))

/-- What follows the table of indices. -/
def midX : Stmts :=
  .cons (printS (name! "Fprintln") (name! "}"))
  (.cons (printS (name! "Fprintln") (name! "var lookupProps = [...]CharProperties{"))
  (.cons (loopX (name! "Properties") innerP)
  (.cons (printS (name! "Fprintln") (name! "}")) tailX)))

theorem main_eq : fn_main = ⟨none, name! "main", [], [],
    .cons (.define [name! "tree", name! "err"] (.cons (.call (.sel (.ident (name! "gentable")) (name! "BuildRawPropertyTree")) (.cons (.str (name! "ucd")) .nil)) .nil))
    (.cons dieS
    (.cons (.varDecl [name! "buf"] (.qual (name! "bytes") (name! "Buffer")))
    (.cons (printS (name! "Fprintln") (name! "// Generated by generate.go. DO NOT EDIT!"))
    (.cons (printS (name! "Fprintln") (name! ""))
    (.cons (printS (name! "Fprintln") (name! "package charprops"))
    (.cons (printS (name! "Fprintln") (name! ""))
    (.cons (printS (name! "Fprintln") (name! "var lookupIndices = [...]uint8{"))
    (.cons (loopX (name! "Indices") innerI) midX))))))))⟩ := rfl

section
variable (m : Machine) (L d : Nat) (h : Heap)
@[mem_exec] theorem ctxM_m : (ctxM m L d).m = m := rfl
@[mem_exec] theorem ctxM_callMethod (v : Val) (x : Nat) (args : List Val) :
    (ctxM m L d).callMethod v x args h = R m L d (.method v x args) h := rfl
@[mem_exec] theorem importedM_fmt : (ctxM m L d).imported (name! "fmt") = true := by kernel_rfl
@[mem_exec] theorem importedM_os : (ctxM m L d).imported (name! "os") = true := by kernel_rfl
@[mem_exec] theorem importedM_math : (ctxM m L d).imported (name! "math") = true := by kernel_rfl
@[mem_exec] theorem importedM_format : (ctxM m L d).imported (name! "format") = true := by kernel_rfl
@[mem_exec] theorem importedM_gentable : (ctxM m L d).imported (name! "gentable") = true := by kernel_rfl
@[mem_exec] theorem resolveM_buffer : resolve (ctxM m L d) (.qual (name! "bytes") (name! "Buffer")) h = .ok (.struct tyBuffer, h) := by kernel_rfl
@[mem_exec] theorem callNM_len (v : Val) : callName (ctxM m L d) (name! "len") [v] h = bindR (len v h) fun v h => .ok ([v], h) := by kernel_rfl
@[mem_exec] theorem callNM_panic (s : GoString) : callName (ctxM m L d) (name! "panic") [.str s] h =
    .error (.panic (.explicit (String.ofList (s.map fun b => Char.ofNat b.toNat)))) := by kernel_rfl
theorem callNM_min (a b : Int) : callName (ctxM m L d) (name! "min") [.int tyInt a, .const b] h =
    (if wrap m.W b = b then (pure [.int tyInt (min a b)] : M (List Val)) else stuck) h := by kernel_rfl
@[mem_exec] theorem globalM_nil : globalOrPredeclared (ctxM m L d) (name! "nil") h = .ok (.nil, h) := by kernel_rfl
@[mem_exec] theorem globalM_stderr : (ctxM m L (d + 1)).global (name! "os") (name! "Stderr") h = .ok (.ptr tyStderr 0, h) := by kernel_rfl
@[mem_exec] theorem globalM_max : (ctxM m L (d + 1)).global (name! "math") (name! "MaxUint8") h = .ok (.const 255, h) := by kernel_rfl
@[mem_exec] theorem callQM_build (args : List Val) : callQualified (ctxM m L d) (name! "gentable") (name! "BuildRawPropertyTree") args h =
    R m L d (.func (name! "gentable") (name! "BuildRawPropertyTree") args) h := by kernel_rfl
theorem callQM_Fprint (a : Nat) (s : GoString) : callQualified (ctxM m L d) (name! "fmt") (name! "Fprint") [.ptr tyBuffer a, .str s] h =
    bindR (appendBuffer a s h) fun _ h => .ok ([.int tyInt s.length, .err none], h) := by kernel_rfl
theorem callQM_Fprintln (a : Nat) (s : GoString) : callQualified (ctxM m L d) (name! "fmt") (name! "Fprintln") [.ptr tyBuffer a, .str s] h =
    bindR (appendBuffer a (s ++ [0x0A]) h) fun _ h => .ok ([.int tyInt (s ++ [0x0A]).length, .err none], h) := by kernel_rfl
theorem callQM_Fprintf (a : Nat) (s : GoString) (v : Val) : callQualified (ctxM m L d) (name! "fmt") (name! "Fprintf") [.ptr tyBuffer a, .str s, v] h =
    (match formatOf s [v] with
      | some s => do
        appendBuffer a s
        pure [.int tyInt s.length, .err none]
      | none => stuck : M (List Val)) h := by kernel_rfl
@[mem_exec] theorem callQM_Stderr (s : GoString) (e : Option GoErr) : callQualified (ctxM m L d) (name! "fmt") (name! "Fprintf") [.ptr tyStderr 0, .str s, .err e] h =
    bindR (survive m (.message (m.sprintf [.str s, .err e])) (h ++ [.effect (.message (m.sprintf [.str s, .err e]))])) fun _ h =>
      .ok ([.int tyInt (m.sprintf [.str s, .err e]).length, .err none], h) := by kernel_rfl
@[mem_exec] theorem callQM_Exit (n : Nat) : callQualified (ctxM m L d) (name! "os") (name! "Exit") [.const (n : Int)] h =
    .error (.exit n (effectsOf h)) := by kernel_rfl
theorem callQM_Source (t u : TyId) (s : Option Sl) : callQualified (ctxM m L d) (name! "format") (name! "Source") [.slice t (.u8 u) s] h =
    formatSource m s h := by kernel_rfl
theorem callQM_Create (s : GoString) : callQualified (ctxM m L d) (name! "os") (name! "Create") [.str s] h =
    (match m.create s with
      | .ok () => do
        let a ← alloc (.effect (.file s []))
        survive m (.file s [])
        pure [.ptr tyFile a, .err none]
      | .error n => pure [.ptr tyFile 0, .err (some (.os n))] : M (List Val)) h := by kernel_rfl
theorem R_main : R m L (d + 1) (.func (name! "main") (name! "main") []) h = callWith (ctxM m L d) L fn_main none [] h := by kernel_rfl
theorem R_Bytes (fs : List (Nat × Val)) : R m L (d + 1) (.method (.struct tyBuffer fs) (name! "Bytes") []) h =
    bufferMethod fs (name! "Bytes") [] h := by kernel_rfl
theorem R_Write (a : Nat) (args : List Val) : R m L (d + 1) (.method (.ptr tyFile a) (name! "Write") args) h =
    fileMethod m a (name! "Write") args h := by kernel_rfl
end

end Textseg.GoMem
