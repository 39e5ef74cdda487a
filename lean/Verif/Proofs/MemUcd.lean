import Verif.Proofs.MemBytes
/-!
# The code of `ucdparse.Scanner.NextEntry` does what the model says
-/

namespace Textseg.GoMem
open Textseg.GoLang (TyId tyInt tyU8 Halt importName wrap)
set_option linter.unusedSimpArgs false

section
variable (c : Ctx) (env : Env) (L base : Nat) (h : Heap)

@[mem_exec ↓] theorem evalMulti_callSel2 (e : Expr) (z x : Nat) (args : Exprs) : evalMulti c env (.call (.sel (.sel e z) x) args) h =
    bindR (evalMulti c env (.sel e z) h) fun v h => bindR (single v h) fun v h => bindR (evalArgs c env args h) fun vs h => c.callMethod v x vs h := rfl

/-- `for { body }`, at most `n` iterations. -/
def forever (c : Ctx) (L : Nat) (body : Stmts) (n : Nat) (env : Env) (h : Heap) : Except Halt (Out × Heap) :=
  loopN (fun _ => pure true) (fun env => do
      let o ← execs c L body env.length env
      pure (leave env.length o)) (fun env => exec c L .skip env.length env) n env h

/-- What follows an iteration. -/
def foreverNext (c : Ctx) (L : Nat) (body : Stmts) (n : Nat) : Out → Heap → Except Halt (Out × Heap)
  | .ret vs, h => .ok (.ret vs, h)
  | .brk env, h => .ok (.next env, h)
  | .next env, h => forever c L body n env h
  | .cont env, h => forever c L body n env h

theorem forever_zero (body : Stmts) : forever c L body 0 env h = .error .bound := rfl
theorem forever_succ (body : Stmts) (n : Nat) : forever c L body (n + 1) env h =
    bindR (execs c L body env.length env h) fun o h => foreverNext c L body n (leave env.length o) h := by
  unfold forever
  rw [loopN, bind_apply, pure_apply, bindR_ok]
  simp only [if_true, bind_apply, bindR_assoc]
  refine bindR_ext _ fun o h => ?_
  rw [pure_apply, bindR_ok]
  cases leave env.length o <;> rfl
theorem exec_forever (body : Stmts) : exec c L (.loop .skip .omitted .skip body) base env h =
    bindR (forever c L body L env h) fun o h => .ok (leave env.length o, h) := rfl
theorem exec_ifInit (xs : List Nat) (es : Exprs) (e : Expr) (thn els : Stmts) : exec c L (.ifThen (.define xs es) e thn els) base env h =
    bindR (exec c L (.define xs es) env.length env h) fun o h =>
    (match o with
      | .next env' => (do
        let v ← eval c env' e
        if ← boolValue v then do
          let o ← execs c L thn env'.length env'
          pure (leave env.length o)
        else do
          let o ← execs c L els env'.length env'
          pure (leave env.length o) : M Out)
      | _ => stuck) h := rfl
end

/-- The context of ucdparse/ucd_scan.go -/
def ctxU (m : Machine) (L d : Nat) : Ctx := mkCtx gentable m (R m L d) (name! "ucdparse") fileUcdScan.imports

def tScan : TyId := ⟨name! "ucdparse", name! "Scanner"⟩
def tEntry : TyId := ⟨name! "ucdparse", name! "Entry"⟩
def tFields : TyId := ⟨name! "ucdparse", name! "Fields"⟩

/-- A `ucdparse.Scanner` whose line Scanner is at address `a`. -/
def scanVal (a : Nat) : Val := .struct tScan [(name! "lineScan", .ptr tyScanner a)]
/-- A `ucdparse.Entry`. -/
def entryVal (s e : Int32) (o : Option Sl) : Val :=
  .struct tEntry [(name! "Start", .rune tyRune s), (name! "End", .rune tyRune e), (name! "Fields", .slice tFields tB o)]

/-- The package-level variables of ucdparse. -/
structure GlobU (h : Heap) : Prop where
  comment : h[2]? = some (.arr [.u8 tyU8 0x23])
  field : h[3]? = some (.arr [.u8 tyU8 0x3B])
  range : h[4]? = some (.arr [.u8 tyU8 0x2E, .u8 tyU8 0x2E])
  split : h[5]? = some (.arr [.u8 tyU8 0xC3, .u8 tyU8 0xB7])
  nonsplit : h[6]? = some (.arr [.u8 tyU8 0xC3, .u8 tyU8 0x97])

theorem GlobU.comment' {h : Heap} (g : GlobU h) : BytesAt h (some ⟨2, 0, 1, 1⟩) commentMarker := ⟨_, g.comment, rfl, rfl⟩
theorem GlobU.field' {h : Heap} (g : GlobU h) : BytesAt h (some ⟨3, 0, 1, 1⟩) fieldSeparator := ⟨_, g.field, rfl, rfl⟩
theorem GlobU.range' {h : Heap} (g : GlobU h) : BytesAt h (some ⟨4, 0, 2, 2⟩) rangeSeparator := ⟨_, g.range, rfl, rfl⟩
theorem GlobU.split' {h : Heap} (g : GlobU h) : BytesAt h (some ⟨5, 0, 2, 2⟩) splitMarker := ⟨_, g.split, rfl, rfl⟩
theorem GlobU.nonsplit' {h : Heap} (g : GlobU h) : BytesAt h (some ⟨6, 0, 2, 2⟩) nonsplitMarker := ⟨_, g.nonsplit, rfl, rfl⟩
theorem GlobU.keep {h h' : Heap} (g : GlobU h) (hk : ∀ a, 2 ≤ a → a < 7 → h'[a]? = h[a]?) : GlobU h' where
  comment := by rw [hk 2 (by omega) (by omega), g.comment]
  field := by rw [hk 3 (by omega) (by omega), g.field]
  range := by rw [hk 4 (by omega) (by omega), g.range]
  split := by rw [hk 5 (by omega) (by omega), g.split]
  nonsplit := by rw [hk 6 (by omega) (by omega), g.nonsplit]
theorem GlobU.len {h : Heap} (g : GlobU h) : 7 ≤ h.length := lt_of_some g.nonsplit

section
variable (m : Machine) (L d : Nat) (h : Heap)
@[mem_exec] theorem ctxU_m : (ctxU m L d).m = m := rfl
@[mem_exec] theorem ctxU_callFunc (p x : Nat) (args : List Val) : (ctxU m L d).callFunc p x args h = R m L d (.func p x args) h := rfl
@[mem_exec] theorem ctxU_callMethod (v : Val) (x : Nat) (args : List Val) :
    (ctxU m L d).callMethod v x args h = R m L d (.method v x args) h := rfl
@[mem_exec] theorem ctxU_bytes : (ctxU m L d).imported (name! "bytes") = true := by kernel_rfl
@[mem_exec] theorem ctxU_fmt : (ctxU m L d).imported (name! "fmt") = true := by kernel_rfl
@[mem_exec] theorem ctxU_io : (ctxU m L d).imported (name! "io") = true := by kernel_rfl
@[mem_exec] theorem ctxU_strconv : (ctxU m L d).imported (name! "strconv") = true := by kernel_rfl
@[mem_exec] theorem ctxU_bufio : (ctxU m L d).imported (name! "bufio") = true := by kernel_rfl
@[mem_exec] theorem globalU_comment : globalOrPredeclared (ctxU m L (d + 1)) (name! "commentMarker") h = .ok (.slice noName tB (some ⟨2, 0, 1, 1⟩), h) := by kernel_rfl
@[mem_exec] theorem globalU_field : globalOrPredeclared (ctxU m L (d + 1)) (name! "fieldSeparator") h = .ok (.slice noName tB (some ⟨3, 0, 1, 1⟩), h) := by kernel_rfl
@[mem_exec] theorem globalU_range : globalOrPredeclared (ctxU m L (d + 1)) (name! "rangeSeparator") h = .ok (.slice noName tB (some ⟨4, 0, 2, 2⟩), h) := by kernel_rfl
@[mem_exec] theorem globalU_nil : globalOrPredeclared (ctxU m L d) (name! "nil") h = .ok (.nil, h) := by kernel_rfl
@[mem_exec] theorem globalU_EOF : (ctxU m L (d + 1)).global (name! "io") (name! "EOF") h = .ok (.err (some (.io .eof)), h) := by kernel_rfl
@[mem_exec] theorem callNameU_string (v : Val) : callName (ctxU m L d) (name! "string") [v] h =
    bindR (convert m.W .str v h) fun v h => .ok ([v], h) := by kernel_rfl
@[mem_exec] theorem callNameU_rune (v : Val) : callName (ctxU m L d) (name! "rune") [v] h =
    bindR (convert m.W (.rune tyRune) v h) fun v h => .ok ([v], h) := by kernel_rfl
@[mem_exec] theorem callNameU_Fields (v : Val) : callName (ctxU m L d) (name! "Fields") [v] h =
    bindR (convert m.W (.slice tFields tB) v h) fun v h => .ok ([v], h) := by kernel_rfl
@[mem_exec] theorem callU_Cut (t t' : TyId) (s sep : Option Sl) :
    callQualified (ctxU m L d) (name! "bytes") (name! "Cut") [.slice t tB s, .slice t' tB sep] h = cutOf tB s sep h := by kernel_rfl
@[mem_exec] theorem callU_TrimSpace (t : TyId) (s : Option Sl) :
    callQualified (ctxU m L d) (name! "bytes") (name! "TrimSpace") [.slice t tB s] h = trimOf tB s h := by kernel_rfl
/-- What `strconv.ParseUint` returns. -/
def parseUintVal : Option Nat → List Val
  | some n => [.wide tyU64 n, .err none]
  | none => [.wide tyU64 0, .err (some .syntax)]
@[mem_exec] theorem callU_ParseUint (s : GoString) :
    callQualified (ctxU m L d) (name! "strconv") (name! "ParseUint") [.str s, .const 16, .const 32] h = .ok (parseUintVal (ParseUint s), h) := by
  have e : callQualified (ctxU m L d) (name! "strconv") (name! "ParseUint") [.str s, .const 16, .const 32] h =
    (match ParseUint s with
      | some n => (pure [.wide tyU64 n, .err none] : M (List Val))
      | none => pure [.wide tyU64 0, .err (some .syntax)]) h := by kernel_rfl
  rw [e]
  cases ParseUint s <;> rfl
@[mem_exec] theorem callU_Errorf (s : GoString) (t u : TyId) (o : Option Sl) (e : Option GoErr) :
    callQualified (ctxU m L d) (name! "fmt") (name! "Errorf") [.str s, .slice t (.u8 u) o, .err e] h =
    bindR (readBytes o h) fun bs h => .ok ([.err (some (.text (m.sprintf [.str s, .str bs, .err e])))], h) := by
  have e0 : callQualified (ctxU m L d) (name! "fmt") (name! "Errorf") [.str s, .slice t (.u8 u) o, .err e] h =
      callLibrary (ctxU m L d) (name! "fmt") (name! "Errorf") [.str s, .slice t (.u8 u) o, .err e] h := by kernel_rfl
  have e1 : callLibrary (ctxU m L d) (name! "fmt") (name! "Errorf") [.str s, .slice t (.u8 u) o, .err e] h =
      bindR (formatArgs [.str s, .slice t (.u8 u) o, .err e] h) fun args h => .ok ([.err (some (.text (m.sprintf args)))], h) := by kernel_rfl
  rw [e0, e1]
  simp only [formatArgs, formatArg, bind_apply, pure_apply, bindR_ok, bindR_assoc]
@[mem_exec] theorem resolveU_Scanner : resolve (ctxU m L d) (.name (name! "Scanner")) h = .ok (.struct tScan, h) := by kernel_rfl
@[mem_exec] theorem resolveU_Entry : resolve (ctxU m L d) (.name (name! "Entry")) h = .ok (.struct tEntry, h) := by kernel_rfl
@[mem_exec] theorem resolveU_error : resolve (ctxU m L d) (.name (name! "error")) h = .ok (.error, h) := by kernel_rfl
@[mem_exec] theorem resolveU_rune : resolve (ctxU m L d) (.name (name! "rune")) h = .ok (.rune tyRune, h) := by kernel_rfl
@[mem_exec] theorem resolveU_string : resolve (ctxU m L d) (.name (name! "string")) h = .ok (.str, h) := by kernel_rfl
@[mem_exec] theorem resolveU_bytes : resolve (ctxU m L d) (.slice (.name (name! "byte"))) h = .ok (.slice noName tB, h) := by kernel_rfl
@[mem_exec] theorem resolveU_Fields : resolve (ctxU m L d) (.name (name! "Fields")) h = .ok (.slice tFields tB, h) := by kernel_rfl
@[mem_exec] theorem compOfU_Entry (keyed : M (List (Nat × Val))) (args : M (List Val)) : compOf (ctxU m L d) (.name (name! "Entry")) keyed args h =
    bindR (keyed h) fun given h => litOf (ctxU m L d) tEntry given h := by kernel_rfl
@[mem_exec] theorem litOfU_Entry (s e : Int32) (o : Option Sl) : litOf (ctxU m L d) tEntry
    [(name! "Start", .rune tyRune s), (name! "End", .rune tyRune e), (name! "Fields", .slice tFields tB o)] h = .ok (entryVal s e o, h) := by kernel_rfl
@[mem_exec] theorem litOfU_Entry0 : litOf (ctxU m L d) tEntry [] h = .ok (entryVal 0 0 none, h) := by kernel_rfl
theorem R_NextEntry (fs : List (Nat × Val)) (args : List Val) : R m L (d + 1) (.method (.struct tScan fs) (name! "NextEntry") args) h =
    callWith (ctxU m L d) L fn_NextEntry (some (.struct tScan fs)) args h := by kernel_rfl
@[mem_exec] theorem R_ScannerScan (a : Nat) : R m L (d + 1) (.method (.ptr tyScanner a) (name! "Scan") []) h = scannerMethod m a (name! "Scan") [] h := by kernel_rfl
@[mem_exec] theorem R_ScannerBytes (a : Nat) : R m L (d + 1) (.method (.ptr tyScanner a) (name! "Bytes") []) h = scannerMethod m a (name! "Bytes") [] h := by kernel_rfl
@[mem_exec] theorem R_ScannerErr (a : Nat) : R m L (d + 1) (.method (.ptr tyScanner a) (name! "Err") []) h = scannerMethod m a (name! "Err") [] h := by kernel_rfl
end

/-- At address `a` is a Scanner over the reader `id` after `pos` calls of `Scan`, with the given line. -/
structure ScanAt (h : Heap) (a id pos : Nat) (line : Option Sl) : Prop where
  obj : h[a]? = some (.scan id pos line)
  line : ∀ s, line = some s → ∃ l, h[s.a]? = some (.arr l)

/-- What changes when a Scanner advances: the Scanner and its previous line. -/
structure Keeps (a : Nat) (line : Option Sl) (h h' : Heap) : Prop where
  len : h.length ≤ h'.length
  keep : ∀ b, b < h.length → b ≠ a → (∀ s, line = some s → b ≠ s.a) → h'[b]? = h[b]?

/-- The address of the line is a new one. -/
def Fresh (n : Nat) (line : Option Sl) : Prop := ∀ s, line = some s → n ≤ s.a

theorem Keeps.trans {a : Nat} {line line' : Option Sl} {h h' h'' : Heap} (k : Keeps a line h h') (hf : Fresh h.length line')
    (k' : Keeps a line' h' h'') : Keeps a line h h'' where
  len := Nat.le_trans k.len k'.len
  keep := by
    intro b hb h1 h2
    have := k.len
    rw [k'.keep b (by omega) h1 (fun s hs => by have := hf s hs; omega), k.keep b hb h1 h2]

/-- The memory after the bytes of the previous line have been overwritten. -/
def clobber (m : Machine) (id pos : Nat) (line : Option Sl) (h : Heap) : Heap :=
  match line with
  | none => h
  | some s =>
    match h[s.a]? with
    | some (.arr l) => h.set s.a (.arr ((List.range l.length).map fun i => .u8 tyU8 (m.junk id pos i)))
    | _ => h

theorem clobber_keeps {m : Machine} {a id pos : Nat} {line : Option Sl} {h : Heap} (hs : ScanAt h a id pos line) :
    (clobber m id pos line h).length = h.length ∧ (∀ b, (∀ s, line = some s → b ≠ s.a) → (clobber m id pos line h)[b]? = h[b]?) ∧
    (clobber m id pos line h)[a]? = some (.scan id pos line) := by
  cases line with
  | none => exact ⟨rfl, fun _ _ => rfl, hs.obj⟩
  | some s =>
    obtain ⟨l, hl'⟩ := hs.line s rfl
    have hne : s.a ≠ a := by
      intro e
      rw [e, hs.obj] at hl'
      cases hl'
    simp only [clobber, hl']
    refine ⟨List.length_set, fun b hb => set_other (Ne.symm (hb s rfl)), ?_⟩
    rw [set_other hne, hs.obj]

/-- The last part of `Scan`. -/
def scanRest (a id pos : Nat) : Option (List UInt8) → M (List Val)
  | none => do
    store a (.scan id (pos + 1) none)
    pure [.bool false]
  | some bs => do
    let b ← alloc (.arr (bs.map (.u8 tyU8)))
    store a (.scan id (pos + 1) (some ⟨b, 0, bs.length, bs.length⟩))
    pure [.bool true]

theorem scan_eq {m : Machine} {a id pos : Nat} {line : Option Sl} {h : Heap} (hs : ScanAt h a id pos line) (r : Option (List UInt8))
    (hr : m.lines id pos = .ok r) :
    scannerMethod m a (name! "Scan") [] h = scanRest a id pos r (clobber m id pos line h) := by
  simp only [scannerMethod, bind_apply, load_some hs.obj, bindR_ok, if_true, hr]
  cases hl : line with
  | none =>
    simp only [pure_apply, bindR_ok, clobber]
    cases r <;> rfl
  | some s =>
    obtain ⟨l, hl'⟩ := hs.line s hl
    simp only [bind_apply, load_some hl', bindR_ok, store_apply, clobber, hl']
    cases r <;> rfl

theorem scan_panic {m : Machine} {a id pos : Nat} {line : Option Sl} {h : Heap} (hs : ScanAt h a id pos line) (p : GoPanic)
    (hr : m.lines id pos = .error p) : scannerMethod m a (name! "Scan") [] h = .error (.panic p) := by
  simp only [scannerMethod, bind_apply, load_some hs.obj, bindR_ok, if_true, hr]
  rfl

theorem scan_false {m : Machine} {a id pos : Nat} {line : Option Sl} {h : Heap} (hs : ScanAt h a id pos line) (hr : m.lines id pos = .ok none) :
    ∃ h', scannerMethod m a (name! "Scan") [] h = .ok ([.bool false], h') ∧ ScanAt h' a id (pos + 1) none ∧ Keeps a line h h' := by
  obtain ⟨c1, c2, c3⟩ := clobber_keeps (m := m) hs
  refine ⟨_, scan_eq hs none hr, ⟨set_self c3, fun s h => by cases h⟩, ?_, ?_⟩
  · rw [List.length_set]; omega
  · intro b hb h1 h2
    rw [set_other (Ne.symm h1), c2 b h2]

theorem scan_true {m : Machine} {a id pos : Nat} {line : Option Sl} {h : Heap} (hs : ScanAt h a id pos line) (raw : List UInt8)
    (hr : m.lines id pos = .ok (some raw)) :
    ∃ h' s, scannerMethod m a (name! "Scan") [] h = .ok ([.bool true], h') ∧ ScanAt h' a id (pos + 1) (some s) ∧ Keeps a line h h' ∧
      BytesAt h' (some s) raw ∧ h.length ≤ s.a := by
  obtain ⟨c1, c2, c3⟩ := clobber_keeps (m := m) hs
  have ha := lt_of_some c3
  have e1 : (clobber m id pos line h ++ [Obj.arr (raw.map (.u8 tyU8))])[a]? = some (.scan id pos line) := by rw [push_old ha, c3]
  have e2 : ∀ o, ((clobber m id pos line h ++ [Obj.arr (raw.map (.u8 tyU8))]).set a o)[(clobber m id pos line h).length]? = some (.arr (raw.map (.u8 tyU8))) := by
    intro o
    rw [set_other (by omega), push_new]
  refine ⟨_, ⟨(clobber m id pos line h).length, 0, raw.length, raw.length⟩, scan_eq hs (some raw) hr, ⟨set_self e1, ?_⟩, ⟨?_, ?_⟩, ⟨_, e2 _, ?_, rfl⟩, by simp [c1]⟩
  · intro s h
    cases h
    exact ⟨_, e2 _⟩
  · simp [c1]
  · intro b hb h1 h2
    rw [set_other (Ne.symm h1), push_old (by omega), c2 b h2]
  · show ((raw.map (Val.u8 tyU8)).drop 0).take raw.length = _
    rw [List.drop_zero, List.take_of_length_le (by simp)]

theorem bytes_eq {m : Machine} {a id pos : Nat} {line : Option Sl} {h : Heap} (hs : ScanAt h a id pos line) :
    scannerMethod m a (name! "Bytes") [] h = .ok ([.slice noName tB line], h) := by
  have n1 : ¬ (name! "Bytes") = (name! "Scan") := by decide
  simp only [scannerMethod, bind_apply, load_some hs.obj, bindR_ok, if_true, if_neg n1, pure_apply]

theorem err_eq {m : Machine} {a id pos : Nat} {line : Option Sl} {h : Heap} (hs : ScanAt h a id pos line) :
    scannerMethod m a (name! "Err") [] h = .ok ([.err ((m.scanErr id pos).map .io)], h) := by
  have n1 : ¬ (name! "Err") = (name! "Scan") := by decide
  have n2 : ¬ (name! "Err") = (name! "Bytes") := by decide
  simp only [scannerMethod, bind_apply, load_some hs.obj, bindR_ok, if_true, if_neg n1, if_neg n2, pure_apply]

/-- The body of a loop. -/
def loopBody : Stmt → Stmts
  | .loop _ _ _ b => b
  | _ => .nil

/-- The body of the loop in `NextEntry`. -/
def nextBody : Stmts := loopBody (stmtAt 0 fn_NextEntry.body)

end Textseg.GoMem
