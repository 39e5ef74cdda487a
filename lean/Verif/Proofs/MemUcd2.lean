import Verif.Proofs.MemUcd
import Verif.Spec.UcdSource
/-!
# The code of `ucdparse.Scanner.NextEntry` does what the model says: the loop
-/

namespace Textseg.GoMem
open Textseg.GoLang (TyId tyInt tyU8 Halt importName wrap)
set_option linter.unusedSimpArgs false

@[mem_exec] theorem assignTo_error (W : Nat) (h : Heap) (e : Option GoErr) : assignTo W .error (.err e) h = .ok (.err e, h) := by
  simp only [assignTo]; rw [if_pos (by rfl)]; rfl
@[mem_exec] theorem assignTo_errorNil (W : Nat) (h : Heap) : assignTo W .error .nil h = .ok (.err none, h) := rfl
@[mem_exec] theorem assignTo_bool (W : Nat) (h : Heap) (b : Bool) : assignTo W .bool (.bool b) h = .ok (.bool b, h) := by
  simp only [assignTo]; rw [if_pos (by rfl)]; rfl
@[mem_exec] theorem assignTo_wide (W : Nat) (h : Heap) (t : TyId) (i : Int) : assignTo W (.wide t) (.wide t i) h = .ok (.wide t i, h) := by
  simp only [assignTo]; rw [if_pos (by rfl)]; rfl
@[mem_exec] theorem binary_errNil_ne (W : Nat) (h : Heap) (e : Option GoErr) : binary W .ne (.err e) .nil h = .ok (.bool (decide (e ≠ none)), h) := by
  simp only [binary, typeOf, bind_apply, assignTo_errorNil, bindR_ok, sameOp]
  rw [if_pos (.inr (by simp))]; rfl
@[mem_exec] theorem binary_rune_const (W : Nat) (h : Heap) (op : BinOp) (t : TyId) (a : Int32) (b : Int) (h1 : op ≠ .shl) (h2 : op ≠ .shr)
    (h0 : -2147483648 ≤ b) (hb : b < 2147483648) :
    binary W op (.rune t a) (.const b) h = runeOp t op a (Int32.ofInt b) h := by
  rw [binary_typed W h op _ _ rfl h1 h2, assignTo, if_pos ⟨h0, hb⟩]
  simp only [pure_apply, bindR_ok, sameOp, if_true]
@[mem_exec] theorem binary_rune (W : Nat) (h : Heap) (op : BinOp) (t : TyId) (a b : Int32) : binary W op (.rune t a) (.rune t b) h = runeOp t op a b h := by
  cases op <;> simp only [binary, typeOf, sameOp, if_true]
@[mem_exec] theorem evalL_blank (c : Ctx) (env : Env) (h : Heap) : evalL c env (.ident (name! "_")) h = .ok (.blank, h) := rfl
@[mem_exec ↓] theorem exec_cont (c : Ctx) (L base : Nat) (env : Env) (h : Heap) : exec c L .cont base env h = .ok (.cont env, h) := rfl
@[mem_exec ↓] theorem exec_brk (c : Ctx) (L base : Nat) (env : Env) (h : Heap) : exec c L .brk base env h = .ok (.brk env, h) := rfl
attribute [mem_exec] runeOp

/-- The variables of `NextEntry`. -/
def envN (ac : Nat) : Env := [(name! "sc", .cell tScan ac)]

/-- What the part of the body after `Scan` does. -/
def lineOut (m : Machine) (ac : Nat) (h : Heap) (s : Sl) (r : Option (Except ParseErr Entry)) (o : Out) : Prop :=
  match r with
  | none => ∃ env, o = .cont (env ++ envN ac)
  | some (.error e) => o = .ret [entryVal 0 0 none, .err (some (Spec.parseError m e))]
  | some (.ok e) => ∃ f, o = .ret [entryVal e.Start e.End f, .nil] ∧ BytesAt h f e.Fields ∧ PartOf f (some s)

theorem textStart : textLine (name! "invalid start of character range %q: %s") = str "invalid start of character range %q: %s" := by decide +kernel
theorem textEnd : textLine (name! "invalid end of character range %q: %s") = str "invalid end of character range %q: %s" := by decide +kernel

theorem nextTail (m : Machine) (L d ac a id pos : Nat) (h : Heap) (s : Sl) (raw : List UInt8) (g : GlobU h) (hac : h[ac]? = some (.struct tScan [(name! "lineScan", .ptr tyScanner a)]))
    (hs : ScanAt h a id pos (some s)) (hb : BytesAt h (some s) raw) :
    ∃ o, execs (ctxU m L (d + 2)) L (dropS 1 nextBody) 1 (envN ac) h = .ok (o, h) ∧ lineOut m ac h s (parseLine raw) o := by
  have hld := load_some hac
  have hby := bytes_eq (m := m) hs
  rcases e1 : bytesCut raw commentMarker with ⟨raw1, x1, y1⟩
  obtain ⟨o1, o1', c1, b1, -, p1, -⟩ := cutOf_spec hb g.comment' e1 (by decide)
  rcases e2 : bytesCut raw1 fieldSeparator with ⟨rng, flds, ok⟩
  obtain ⟨o2, o2', c2, b2, b2', p2, p2'⟩ := cutOf_spec b1 g.field' e2 (by decide)
  obtain ⟨o3, c3, b3, p3⟩ := trimOf_spec b2
  obtain ⟨o4, c4, b4, p4⟩ := trimOf_spec b2'
  rcases e5 : bytesCut (TrimSpace rng) rangeSeparator with ⟨sh, eh, isR⟩
  obtain ⟨o5, o5', c5, b5, b5', -, -⟩ := cutOf_spec b3 g.range' e5 (by decide)
  have r5 := b5.readSlice
  have r5' := b5'.readSlice
  have hp4 : PartOf o4 (some s) := (p4.trans p2').trans p1
  cases ok with
  | false =>
    have hpl : parseLine raw = none := by simp only [parseLine, e1, e2]
    rw [hpl]
    refine ⟨.cont ([(name! "ok", .bool false), (name! "fieldsRaw", .slice noName tB o2'), (name! "rng", .slice noName tB o2),
      (name! "raw", .slice noName tB o1)] ++ envN ac), ?_, ⟨_, rfl⟩⟩
    simp [mem_exec, nextBody, fn_NextEntry, stmtAt, loopBody, dropS, envN, loadStruct, hld, hby, c1, c2]
  | true =>
    rcases hu : ParseUint sh with _ | n
    · have hpl : parseLine raw = some (.error (.invalidStart sh)) := by simp only [parseLine, e1, e2, e5, hu]
      rw [hpl]
      simp [mem_exec, nextBody, fn_NextEntry, stmtAt, loopBody, dropS, envN, loadStruct, hld, hby, c1, c2, c3, c4, c5, r5, bytesOf_map, hu, parseUintVal,
        b5.read, lineOut, Spec.parseError, textStart]
    · cases isR with
      | false =>
        have hpl : parseLine raw = some (.ok ⟨toRune n, toRune n + 1, TrimSpace flds⟩) := by simp only [parseLine, e1, e2, e5, hu]; rfl
        rw [hpl]
        simp [mem_exec, nextBody, fn_NextEntry, stmtAt, loopBody, dropS, envN, loadStruct, hld, hby, c1, c2, c3, c4, c5, r5, bytesOf_map, hu, parseUintVal,
          lineOut]
        exact ⟨o4, rfl, b4, hp4⟩
      | true =>
        rcases hv : ParseUint eh with _ | k
        · have hpl : parseLine raw = some (.error (.invalidEnd eh)) := by simp only [parseLine, e1, e2, e5, hu, hv]; rfl
          rw [hpl]
          simp [mem_exec, nextBody, fn_NextEntry, stmtAt, loopBody, dropS, envN, loadStruct, hld, hby, c1, c2, c3, c4, c5, r5, r5', bytesOf_map, hu, hv, parseUintVal,
            b5'.read, lineOut, Spec.parseError, textEnd]
        · have hpl : parseLine raw = some (.ok ⟨toRune n, toRune k + 1, TrimSpace flds⟩) := by simp only [parseLine, e1, e2, e5, hu, hv]; rfl
          rw [hpl]
          simp [mem_exec, nextBody, fn_NextEntry, stmtAt, loopBody, dropS, envN, loadStruct, hld, hby, c1, c2, c3, c4, c5, r5, r5', bytesOf_map, hu, hv, parseUintVal,
            lineOut]
          exact ⟨o4, rfl, b4, hp4⟩

theorem nextHead_false (m : Machine) (L d ac a id pos : Nat) (h : Heap) (line : Option Sl) (hac : h[ac]? = some (.struct tScan [(name! "lineScan", .ptr tyScanner a)]))
    (hs : ScanAt h a id pos line) (hr : m.lines id pos = .ok none) (hac' : ∀ s, line = some s → ac ≠ s.a) :
    ∃ h', execs (ctxU m L (d + 2)) L nextBody 1 (envN ac) h = .ok (.ret [entryVal 0 0 none, .err (some (.io ((m.scanErr id (pos + 1)).getD .eof)))], h') ∧
      ScanAt h' a id (pos + 1) none ∧ Keeps a line h h' := by
  obtain ⟨h', c0, hs', hk⟩ := scan_false hs hr
  refine ⟨h', ?_, hs', hk⟩
  have hne : ac ≠ a := by rintro rfl; rw [hs.obj] at hac; cases hac
  have hac1 : h'[ac]? = some (.struct tScan [(name! "lineScan", .ptr tyScanner a)]) := by
    rw [hk.keep ac (lt_of_some hac) hne hac', hac]
  have hld := load_some hac
  have hld1 := load_some hac1
  have her := err_eq (m := m) hs'
  rcases he : m.scanErr id (pos + 1) with _ | e
  · rw [he] at her
    simp [mem_exec, nextBody, fn_NextEntry, stmtAt, loopBody, envN, loadStruct, hld, hld1, c0, exec_ifInit, her]
  · rw [he] at her
    simp [mem_exec, nextBody, fn_NextEntry, stmtAt, loopBody, envN, loadStruct, hld, hld1, c0, exec_ifInit, her]

theorem nextHead_panic (m : Machine) (L d ac a id pos : Nat) (h : Heap) (line : Option Sl) (hac : h[ac]? = some (.struct tScan [(name! "lineScan", .ptr tyScanner a)]))
    (hs : ScanAt h a id pos line) (p : GoPanic) (hr : m.lines id pos = .error p) :
    execs (ctxU m L (d + 2)) L nextBody 1 (envN ac) h = .error (.panic p) := by
  have hld := load_some hac
  have c0 := scan_panic hs p hr
  simp [mem_exec, nextBody, fn_NextEntry, stmtAt, loopBody, envN, loadStruct, hld, c0]

theorem nextHead_true (m : Machine) (L d ac a id pos : Nat) (h : Heap) (line : Option Sl) (hac : h[ac]? = some (.struct tScan [(name! "lineScan", .ptr tyScanner a)]))
    (hs : ScanAt h a id pos line) (raw : List UInt8) (hr : m.lines id pos = .ok (some raw)) (hac' : ∀ s, line = some s → ac ≠ s.a) (g : GlobU h)
    (hg : Fresh 7 line) :
    ∃ h' s o, execs (ctxU m L (d + 2)) L nextBody 1 (envN ac) h = .ok (o, h') ∧ lineOut m ac h' s (parseLine raw) o ∧
      ScanAt h' a id (pos + 1) (some s) ∧ Keeps a line h h' ∧ h.length ≤ s.a ∧ GlobU h' ∧
      h'[ac]? = some (.struct tScan [(name! "lineScan", .ptr tyScanner a)]) := by
  obtain ⟨h', s, c0, hs', hk, hb, hl⟩ := scan_true hs raw hr
  have hne : ac ≠ a := by rintro rfl; rw [hs.obj] at hac; cases hac
  have hac1 : h'[ac]? = some (.struct tScan [(name! "lineScan", .ptr tyScanner a)]) := by
    rw [hk.keep ac (lt_of_some hac) hne hac', hac]
  have g' : GlobU h' := g.keep fun b b1 b2 => hk.keep b (by have := g.len; omega)
    (by
      rintro rfl
      have ho := hs.obj
      have : b = 2 ∨ b = 3 ∨ b = 4 ∨ b = 5 ∨ b = 6 := by omega
      rcases this with rfl | rfl | rfl | rfl | rfl
      · rw [g.comment] at ho; cases ho
      · rw [g.field] at ho; cases ho
      · rw [g.range] at ho; cases ho
      · rw [g.split] at ho; cases ho
      · rw [g.nonsplit] at ho; cases ho) (fun s hs => by have := hg s hs; omega)
  obtain ⟨o, ht, hlo⟩ := nextTail m L d ac a id (pos + 1) h' s raw g' hac1 hs' hb
  refine ⟨h', s, o, ?_, hlo, hs', hk, hl, g', hac1⟩
  have e : nextBody = .cons (stmtAt 0 nextBody) (dropS 1 nextBody) := rfl
  have hld := load_some hac
  have e0 : exec (ctxU m L (d + 2)) L (stmtAt 0 nextBody) 1 (envN ac) h = .ok (.next (envN ac), h') := by
    simp [mem_exec, nextBody, fn_NextEntry, stmtAt, loopBody, envN, loadStruct, hld, c0]
  rw [e, execs_cons, e0, bindR_ok]
  exact ht

/-- The results of `NextEntry` in the memory `h`; `ok` is the value for no error. -/
def NextOut (m : Machine) (ok : Val) (h : Heap) (line : Option Sl) (r : Except ParseErr Entry) (vs : List Val) : Prop :=
  match r with
  | .error e => vs = [entryVal 0 0 none, .err (some (Spec.parseError m e))]
  | .ok e => ∃ f, vs = [entryVal e.Start e.End f, ok] ∧ BytesAt h f e.Fields ∧ PartOf f line

open Textseg.Spec in
theorem scans_next {σ : Type} {m : Machine} {id pos : Nat} {read : Reader σ} {s s' : Scanner σ} {b : Bool} (hs : Scans m id pos read s)
    (hn : s.Scan ScanLines read maxScanTokenSize = .ok (b, s')) : Scans m id (pos + 1) read s' where
  lines := by
    intro k
    have := hs.lines (k + 1)
    rw [scanResult, hn] at this
    rw [← Nat.add_assoc, Nat.add_right_comm] at this
    exact this
  err := by
    intro k r hr
    have := hs.err (k + 1) r (by rw [scanResult, hn]; exact hr)
    rw [← Nat.add_assoc, Nat.add_right_comm pos] at this
    exact this

open Textseg.Spec in
theorem next_loop {σ : Type} (m : Machine) (L d ac a id : Nat) (read : Reader σ) : ∀ (n n' pos : Nat) (s : Scanner σ) (h : Heap) (line : Option Sl), n ≤ n' →
    h[ac]? = some (.struct tScan [(name! "lineScan", .ptr tyScanner a)]) → ScanAt h a id pos line → (∀ s, line = some s → ac ≠ s.a) →
    GlobU h → Fresh 7 line → Scans m id pos read s →
    match NextEntry read n s with
    | .ok (r, s') => ∃ h' line' pos' vs, forever (ctxU m L (d + 2)) L nextBody n' (envN ac) h = .ok (.ret vs, h') ∧ NextOut m .nil h' line' r vs ∧
        ScanAt h' a id pos' line' ∧ Keeps a line h h' ∧ Fresh h.length line' ∧ Scans m id pos' read s'
    | .error p => p ≠ .outOfFuel → forever (ctxU m L (d + 2)) L nextBody n' (envN ac) h = .error (.panic p) := by
  intro n
  induction n with
  | zero => intro n' pos s h line _ _ _ _ _ _ _ hp; exact absurd rfl hp
  | succ n ih =>
    intro n' pos s h line hn hac hsc hac' g hg hs
    obtain ⟨n', rfl⟩ : ∃ k, n' = k + 1 := ⟨n' - 1, by omega⟩
    have hl := hs.lines 0
    rw [Nat.add_zero, scanResult] at hl
    have el : (envN ac).length = 1 := rfl
    rw [forever_succ, el, NextEntry]
    rcases hr : s.Scan ScanLines read maxScanTokenSize with p | ⟨b, s'⟩
    · rw [hr] at hl
      intro _
      rw [nextHead_panic m L d ac a id pos h line hac hsc p hl]
      rfl
    · rw [hr] at hl
      have hs' := scans_next hs hr
      cases b with
      | false =>
        obtain ⟨h', e, hsc', hk⟩ := nextHead_false m L d ac a id pos h line hac hsc hl hac'
        have he := hs.err 0 (false, s') (by rw [scanResult, hr])
        refine ⟨h', none, pos + 1, _, by rw [e]; rfl, ?_, hsc', hk, (fun _ h => by cases h), hs'⟩
        rw [Nat.add_zero] at he
        rw [he]
        simp only [endOfLines, NextOut]
        cases s'.Err <;> rfl
      | true =>
        obtain ⟨h', sl, o, e, hlo, hsc', hk, hle, g', hac1⟩ := nextHead_true m L d ac a id pos h line hac hsc _ hl hac' g hg
        have hlt := lt_of_some hac
        have hgl := g.len
        simp only [bind, Except.bind]
        rw [e, bindR_ok]
        rcases hp : parseLine (s'.Bytes.getD []) with _ | _ | en
        · rw [hp] at hlo
          obtain ⟨env, rfl⟩ := hlo
          have e1 : leave 1 (Out.cont (env ++ envN ac)) = .cont (envN ac) := by simp [leave, envN]
          rw [e1]
          have := ih n' (pos + 1) s' h' (some sl) (by omega) hac1 hsc' (fun s hs => by cases hs; omega) g' (fun s hs => by cases hs; omega) hs'
          simp only []
          rcases hq : NextEntry read n s' with p | ⟨r, s''⟩
          · rw [hq] at this
            exact this
          · rw [hq] at this
            obtain ⟨h2, line2, pos2, vs, f1, f2, f3, f4, f5, f6⟩ := this
            refine ⟨h2, line2, pos2, vs, f1, f2, f3, hk.trans (fun s hs => by cases hs; exact hle) f4, fun s hs => ?_, f6⟩
            have := f5 s hs
            have := hk.len
            omega
        · rw [hp] at hlo
          cases hlo
          exact ⟨h', some sl, pos + 1, _, rfl, rfl, hsc', hk, fun s hs => by cases hs; exact hle, hs'⟩
        · rw [hp] at hlo
          obtain ⟨f, rfl, hf, hpf⟩ := hlo
          exact ⟨h', some sl, pos + 1, _, rfl, ⟨f, rfl, hf, hpf⟩, hsc', hk, fun s hs => by cases hs; exact hle, hs'⟩

open Textseg.Spec in
/-- `sc.NextEntry()` -/
theorem NextEntry_spec {σ : Type} (m : Machine) (L d a id : Nat) (read : Reader σ) (n pos : Nat) (s : Scanner σ) (h : Heap) (line : Option Sl) (hn : n ≤ L)
    (hsc : ScanAt h a id pos line) (g : GlobU h) (hg : Fresh 7 line) (hs : Scans m id pos read s) :
    match NextEntry read n s with
    | .ok (r, s') => ∃ h' line' pos' vs, R m L (d + 3) (.method (scanVal a) (name! "NextEntry") []) h = .ok (vs, h') ∧ NextOut m (.err none) h' line' r vs ∧
        ScanAt h' a id pos' line' ∧ Keeps a line h h' ∧ Fresh h.length line' ∧ Scans m id pos' read s'
    | .error p => p ≠ .outOfFuel → R m L (d + 3) (.method (scanVal a) (name! "NextEntry") []) h = .error (.panic p) := by
  have e0 : R m L (d + 3) (.method (scanVal a) (name! "NextEntry") []) h =
      bindR (bindR (forever (ctxU m L (d + 2)) L nextBody L (envN h.length) (h ++ [.struct tScan [(name! "lineScan", .ptr tyScanner a)]]))
        fun o h => .ok (leave 1 o, h)) fun o h => bindR (andThen (ctxU m L (d + 2)) L 0 .nil o h) (returned (ctxU m L (d + 2)) fn_NextEntry.results) := by
    rw [scanVal, R_NextEntry]
    have e1 : fn_NextEntry = ⟨some (name! "sc", .name (name! "Scanner")), name! "NextEntry", [], fn_NextEntry.results, .cons (.loop .skip .omitted .skip nextBody) .nil⟩ := rfl
    rw [e1, callWith_method]
    simp only [bindParams_cons, bindParams_nil, resolveU_Scanner, bindR_ok, assignTo_struct, declare, bind_apply, alloc_apply, pure_apply]
    rw [execs_cons, exec_forever, ← bindR_assoc]
    rfl
  have hlen : (h ++ [Obj.struct tScan [(name! "lineScan", .ptr tyScanner a)]]).length = h.length + 1 := by simp
  have hk0 : Keeps a line h (h ++ [Obj.struct tScan [(name! "lineScan", .ptr tyScanner a)]]) := ⟨by omega, fun b hb _ _ => push_old hb⟩
  have hl0 : ∀ s, line = some s → s.a < h.length := fun s hs => by obtain ⟨l, hl⟩ := hsc.line s hs; exact lt_of_some hl
  have hloop := next_loop m L d h.length a id read n L pos s (h ++ [.struct tScan [(name! "lineScan", .ptr tyScanner a)]]) line hn push_new
    ⟨by rw [push_old (lt_of_some hsc.obj)]; exact hsc.obj, fun s hs => by rw [push_old (hl0 s hs)]; exact hsc.line s hs⟩
    (fun s hs => by have := hl0 s hs; omega)
    (g.keep fun b _ _ => push_old (by have := g.len; omega)) hg hs
  rw [e0]
  rcases hq : NextEntry read n s with p | ⟨r, s'⟩
  · rw [hq] at hloop
    intro hp
    rw [hloop hp]
    rfl
  · rw [hq] at hloop
    obtain ⟨h', line', pos', vs, f1, f2, f3, f4, f5, f6⟩ := hloop
    have hk : Keeps a line h h' := ⟨by have := f4.len; omega, fun b hb b1 b2 => by rw [f4.keep b (by omega) b1 b2, push_old hb]⟩
    have hf : Fresh h.length line' := fun s hs => by have := f5 s hs; omega
    rw [f1]
    have er : ∀ (e : Entry) (v : Option Sl), results (ctxU m L (d + 2)) fn_NextEntry.results [entryVal e.Start e.End v, .nil] h' = .ok ([entryVal e.Start e.End v, .err none], h') := by
      intro e v
      simp [mem_exec, fn_NextEntry, entryVal]
    have er' : ∀ (v : Option GoErr), results (ctxU m L (d + 2)) fn_NextEntry.results [entryVal 0 0 none, .err v] h' = .ok ([entryVal 0 0 none, .err v], h') := by
      intro v
      simp [mem_exec, fn_NextEntry, entryVal]
    rcases r with e | e
    · cases f2
      exact ⟨h', line', pos', _, er' _, rfl, f3, hk, hf, f6⟩
    · obtain ⟨f, rfl, hv⟩ := f2
      exact ⟨h', line', pos', _, er e f, ⟨f, rfl, hv⟩, f3, hk, hf, f6⟩

end Textseg.GoMem
