import Verif.Proofs.MemTest3
/-!
# The code of `ucdparse.TestDataScanner.NextEntry` does what the model says: the loop over the lines
-/

namespace Textseg.GoMem.TD
open Textseg.GoLang (TyId tyInt tyU8 Halt importName wrap)
set_option linter.unusedSimpArgs false

/-- The variables of `NextEntry`. -/
def envT (ac : Nat) : Env := [(name! "sc", .cell tTest ac)]

/-- The slices of an entry have these contents, and are in arrays at addresses from `N` on. -/
structure EntryAt (N : Nat) (h : Heap) (oIn oW : Option Sl) (ws : List (Option Sl)) (e : TestDataEntry) : Prop where
  inp : Grown h oIn (e.Input.map (.u8 tyU8))
  want : Grown h oW (ws.map (.slice noName tB))
  len : ws.length = e.WantSegments.length
  seg : ∀ (j : Nat) (o : Option Sl) (p : List UInt8), ws[j]? = some o → e.WantSegments[j]? = some p → Grown h o (p.map (.u8 tyU8))
  inN : ∀ s, oIn = some s → N ≤ s.a
  wN : ∀ s, oW = some s → N ≤ s.a
  sN : ∀ o, o ∈ ws → ∀ s, o = some s → N ≤ s.a

theorem EntryAt.keep {N : Nat} {h h' : Heap} {oIn oW : Option Sl} {ws : List (Option Sl)} {e : TestDataEntry} (hE : EntryAt N h oIn oW ws e)
    (hk : ∀ b, N ≤ b → b < h.length → h'[b]? = h[b]?) : EntryAt N h' oIn oW ws e where
  inp := hE.inp.keep fun s hs => hk _ (hE.inN s hs) (hE.inp.lt s hs)
  want := hE.want.keep fun s hs => hk _ (hE.wN s hs) (hE.want.lt s hs)
  len := hE.len
  seg := fun j o p hj hp => (hE.seg j o p hj hp).keep fun s hs => hk _ (hE.sN o (List.mem_of_getElem? hj) s hs) ((hE.seg j o p hj hp).lt s hs)
  inN := hE.inN
  wN := hE.wN
  sN := hE.sN

theorem SegsInv.entryAt {N : Nat} {h : Heap} {ae : Nat} {oIn oW : Option Sl} {ws : List (Option Sl)} {e : TestDataEntry}
    (hI : SegsInv N h ae oIn oW ws e.Input e.WantSegments) : EntryAt N h oIn oW ws e :=
  ⟨hI.inp, hI.want, hI.len, hI.seg, fun s hs => (hI.inN s hs).1, fun s hs => (hI.wN s hs).1, fun o ho s hs => (hI.sN o ho s hs).1⟩

/-- What the part of the body after `Scan` does. -/
def testOut (m : Machine) (ac N : Nat) (h : Heap) (r : Go (Option (Except ParseErr TestDataEntry))) (o : Out) : Prop :=
  match r with
  | .error _ => False
  | .ok none => ∃ env, o = .cont (env ++ envT ac)
  | .ok (some (.error e)) => o = .ret [.struct tTE (teFields none none), .err (some (errOf m e))]
  | .ok (some (.ok e)) => ∃ oIn oW ws, o = .ret [.struct tTE (teFields oIn oW), .nil] ∧ EntryAt N h oIn oW ws e

theorem testTail (m : Machine) (hW : 32 ≤ m.W) (L d ac a id pos : Nat) (h : Heap) (s : Sl) (raw : List UInt8) (g : GlobU h)
    (hac : h[ac]? = some (.struct tTest [(name! "lineScan", .ptr tyScanner a)])) (hs : ScanAt h a id pos (some s)) (hb : BytesAt h (some s) raw) :
    ∃ o h', execs (ctxT m L (d + 2)) L (dropS 1 testBody) 1 (envT ac) h = .ok (o, h') ∧ testOut m ac h.length h' (parseTestLine raw) o ∧
      (∀ b, b < h.length → h'[b]? = h[b]?) ∧ h.length ≤ h'.length := by
  have w0 := wrap_small m.W hW 0 (by omega) (by omega)
  have hld := load_some hac
  have hby := bytes_eq (m := m) hs
  have h7 := g.len
  rcases e1 : bytesCut raw commentMarker with ⟨raw1, x1, y1⟩
  obtain ⟨o1, o1', c1, b1, -, p1, -⟩ := cutOf_spec hb g.comment' e1 (by decide)
  obtain ⟨o2, c2, b2, p2⟩ := trimOf_spec b1
  have hpl : parseTestLine raw = if (TrimSpace raw1).length = 0 then .ok none else (do
      let wantSegs ← bytesSplit (TrimSpace raw1) splitMarker
      let r ← parseSegs wantSegs { Input := [], WantSegments := [] }
      .ok (some r)) := by simp only [parseTestLine, e1]
  rw [hpl]
  have e3 : execs (ctxT m L (d + 2)) L (dropS 1 testBody) 1 (envT ac) h =
      execs (ctxT m L (d + 2)) L (dropS 4 testBody) 1 ((name! "raw", .slice noName tB o2) :: envT ac) h := by
    simp [mem_exec, testBody, fn_NextTestEntry, stmtAt, loopBody, dropS, envT, loadStruct, hld, hby, c1, c2]
  rw [e3]
  by_cases hl : (TrimSpace raw1).length = 0
  · rw [if_pos hl]
    refine ⟨.cont ([(name! "raw", .slice noName tB o2)] ++ envT ac), h, ?_, ⟨_, rfl⟩, fun _ _ => rfl, Nat.le_refl _⟩
    have hz : (o2.map fun x => (x.len : Int)).getD 0 = 0 := by
      cases o2 with
      | none => rfl
      | some s => obtain ⟨l, k1, k2, k3⟩ := b2; show (s.len : Int) = 0; omega
    simp [mem_exec, testBody, fn_NextTestEntry, stmtAt, loopBody, dropS, envT, w0, hz]
  · rw [if_neg hl]
    obtain ⟨s2, rfl⟩ : ∃ s2, o2 = some s2 := by
      cases o2 with
      | none => exact absurd (by rw [show TrimSpace raw1 = [] from b2]; rfl) hl
      | some s => exact ⟨s, rfl⟩
    have hsl : s2.len = (TrimSpace raw1).length := by obtain ⟨l, k1, k2, k3⟩ := b2; omega
    have hs2 : s2.a < h.length := by obtain ⟨l, k1, _⟩ := b2; exact lt_of_some k1
    obtain ⟨ps, hps⟩ := bytesSplitLoop_total splitMarker (by decide) ((TrimSpace raw1).length + 1) (TrimSpace raw1) (by omega)
    have hps : bytesSplit (TrimSpace raw1) splitMarker = .ok ps := hps
    obtain ⟨vs, c3, hpc, hvl⟩ := splitOf_spec b2 g.split' (by decide) hps
    have e4 : execs (ctxT m L (d + 2)) L (dropS 4 testBody) 1 ((name! "raw", .slice noName tB (some s2)) :: envT ac) h =
        bindR (rangeN (rangeBody (ctxT m L (d + 2)) L ⟨h.length, 0, ps.length, ps.length⟩ (name! "_") (name! "wantSeg") segsBody) ps.length 0
          (envE (h.length + 1) ac (.slice noName tBB (some ⟨h.length, 0, ps.length, ps.length⟩)) (.slice noName tB (some s2)))
          (h ++ [.arr vs] ++ [.struct tTE (teFields none none)]))
          (andThen (ctxT m L (d + 2)) L 1 (dropS 8 testBody)) := by
      have hsl' : ¬ s2.len = 0 := by omega
      simp [mem_exec, testBody, segsBody, rangeBodyOf, fn_NextTestEntry, stmtAt, loopBody, dropS, envT, envE, w0, hsl', c3, extent, declare]
    rw [e4]
    have hk0 : ∀ b, b < h.length + 1 → (h ++ [Obj.arr vs] ++ [Obj.struct tTE (teFields none none)])[b]? = (h ++ [Obj.arr vs])[b]? := fun b hb => push_old (by simp; omega)
    have hk1 : ∀ b, b < h.length → (h ++ [Obj.arr vs] ++ [Obj.struct tTE (teFields none none)])[b]? = h[b]? := fun b hb => by rw [hk0 b (by omega), push_old hb]
    have hln : (h ++ [Obj.arr vs] ++ [Obj.struct tTE (teFields none none)]).length = h.length + 2 := by simp
    have hN : (h ++ [Obj.arr vs] ++ [Obj.struct tTE (teFields none none)])[h.length + 1]? = some (Obj.struct tTE (teFields none none)) := by
      have : (h ++ [Obj.arr vs]).length = h.length + 1 := by simp
      rw [← this]; exact push_new
    have hloop := segs_loop m hW L d (h.length + 1) ac (.slice noName tBB (some ⟨h.length, 0, ps.length, ps.length⟩)) (.slice noName tB (some s2))
      (h.length + 1) (by omega) ⟨h.length, 0, ps.length, ps.length⟩ vs rfl (by show h.length < h.length + 1; omega) s2.a (by omega) ps 0
      (h ++ [.arr vs] ++ [.struct tTE (teFields none none)]) none none [] ⟨[], []⟩ (by rw [hk0 _ (by show h.length < h.length + 1; omega)]; exact push_new)
      (hpc.keep (hk1 _ hs2)) (g.keep fun b _ _ => hk1 b (by omega))
      ⟨Nat.le_refl _, hN, rfl, rfl, rfl, (fun j o p h => by simp at h), (fun s h => nomatch h), (fun s h => nomatch h), (fun o h => nomatch h)⟩
    simp only [hps, bind, Except.bind]
    rcases hr : parseSegs ps ⟨[], []⟩ with x | e | e
    · rw [hr] at hloop; exact hloop.elim
    · rw [hr] at hloop
      obtain ⟨h', f1, f2, f3⟩ := hloop
      refine ⟨_, h', by rw [f1]; rfl, rfl, fun b hb => by rw [f2 b (by omega), hk1 b hb], by omega⟩
    · rw [hr] at hloop
      obtain ⟨h', oIn, oW, ws, f1, f2, f3, f4⟩ := hloop
      have hE := f2.entryAt
      refine ⟨.ret [.struct tTE (teFields oIn oW), .nil], h', ?_, ⟨oIn, oW, ws, rfl, ⟨hE.inp, hE.want, hE.len, hE.seg, ?_, ?_, ?_⟩⟩, fun b hb => by rw [f3 b (by omega), hk1 b hb], by omega⟩
      · rw [f1]
        have ld := load_some f2.obj
        simp [mem_exec, testBody, fn_NextTestEntry, stmtAt, loopBody, dropS, envE, loadStruct, ld]
      · intro s hs; have := hE.inN s hs; omega
      · intro s hs; have := hE.wN s hs; omega
      · intro o ho s hs; have := hE.sN o ho s hs; omega

theorem testHead_false (m : Machine) (L d ac a id pos : Nat) (h : Heap) (line : Option Sl) (hac : h[ac]? = some (.struct tTest [(name! "lineScan", .ptr tyScanner a)]))
    (hs : ScanAt h a id pos line) (hr : m.lines id pos = .ok none) (hac' : ∀ s, line = some s → ac ≠ s.a) :
    ∃ h', execs (ctxT m L (d + 2)) L testBody 1 (envT ac) h = .ok (.ret [.struct tTE (teFields none none), .err (some (.io ((m.scanErr id (pos + 1)).getD .eof)))], h') ∧
      ScanAt h' a id (pos + 1) none ∧ Keeps a line h h' := by
  obtain ⟨h', c0, hs', hk⟩ := scan_false hs hr
  refine ⟨h', ?_, hs', hk⟩
  have hne : ac ≠ a := by rintro rfl; rw [hs.obj] at hac; cases hac
  have hac1 : h'[ac]? = some (.struct tTest [(name! "lineScan", .ptr tyScanner a)]) := by
    rw [hk.keep ac (lt_of_some hac) hne hac', hac]
  have hld := load_some hac
  have hld1 := load_some hac1
  have her := err_eq (m := m) hs'
  rcases he : m.scanErr id (pos + 1) with _ | e
  · rw [he] at her
    simp [mem_exec, testBody, fn_NextTestEntry, stmtAt, loopBody, envT, loadStruct, hld, hld1, c0, exec_ifInit, her]
  · rw [he] at her
    simp [mem_exec, testBody, fn_NextTestEntry, stmtAt, loopBody, envT, loadStruct, hld, hld1, c0, exec_ifInit, her]

theorem testHead_panic (m : Machine) (L d ac a id pos : Nat) (h : Heap) (line : Option Sl) (hac : h[ac]? = some (.struct tTest [(name! "lineScan", .ptr tyScanner a)]))
    (hs : ScanAt h a id pos line) (p : GoPanic) (hr : m.lines id pos = .error p) :
    execs (ctxT m L (d + 2)) L testBody 1 (envT ac) h = .error (.panic p) := by
  have hld := load_some hac
  have c0 := scan_panic hs p hr
  simp [mem_exec, testBody, fn_NextTestEntry, stmtAt, loopBody, envT, loadStruct, hld, c0]

theorem testHead_true (m : Machine) (hW : 32 ≤ m.W) (L d ac a id pos : Nat) (h : Heap) (line : Option Sl) (hac : h[ac]? = some (.struct tTest [(name! "lineScan", .ptr tyScanner a)]))
    (hs : ScanAt h a id pos line) (raw : List UInt8) (hr : m.lines id pos = .ok (some raw)) (hac' : ∀ s, line = some s → ac ≠ s.a) (g : GlobU h)
    (hg : Fresh 7 line) :
    ∃ h' s o N, execs (ctxT m L (d + 2)) L testBody 1 (envT ac) h = .ok (o, h') ∧ testOut m ac N h' (parseTestLine raw) o ∧
      ScanAt h' a id (pos + 1) (some s) ∧ Keeps a line h h' ∧ h.length ≤ s.a ∧ s.a < N ∧ h.length ≤ N ∧ GlobU h' ∧
      h'[ac]? = some (.struct tTest [(name! "lineScan", .ptr tyScanner a)]) := by
  obtain ⟨h1, s, c0, hs', hk, hb, hl⟩ := scan_true hs raw hr
  have hne : ac ≠ a := by rintro rfl; rw [hs.obj] at hac; cases hac
  have hac1 : h1[ac]? = some (.struct tTest [(name! "lineScan", .ptr tyScanner a)]) := by
    rw [hk.keep ac (lt_of_some hac) hne hac', hac]
  have g' : GlobU h1 := g.keep fun b b1 b2 => hk.keep b (by have := g.len; omega)
    (by
      rintro rfl
      have ho := hs.obj
      have : b = 2 ∨ b = 3 ∨ b = 4 ∨ b = 5 ∨ b = 6 := by omega
      rcases this with rfl | rfl | rfl | rfl | rfl
      · rw [g.comment] at ho; cases ho
      · rw [g.field] at ho; cases ho
      · rw [g.range] at ho; cases ho
      · rw [g.split] at ho; cases ho
      · rw [g.nonsplit] at ho; cases ho) (fun s hs => by have := hg s hs; omega)
  obtain ⟨o, h', ht, hlo, hk', hl'⟩ := testTail m hW L d ac a id (pos + 1) h1 s raw g' hac1 hs' hb
  have hsl : s.a < h1.length := by obtain ⟨l, k1, _⟩ := hb; exact lt_of_some k1
  have hkl := hk.len
  refine ⟨h', s, o, h1.length, ?_, hlo, ⟨?_, ?_⟩, ⟨by omega, ?_⟩, hl, hsl, hkl, g'.keep fun b _ _ => hk' b (by have := g'.len; omega), ?_⟩
  · have e : testBody = .cons (stmtAt 0 testBody) (dropS 1 testBody) := rfl
    have hld := load_some hac
    have e0 : exec (ctxT m L (d + 2)) L (stmtAt 0 testBody) 1 (envT ac) h = .ok (.next (envT ac), h1) := by
      simp [mem_exec, testBody, fn_NextTestEntry, stmtAt, loopBody, envT, loadStruct, hld, c0]
    rw [e, execs_cons, e0, bindR_ok]
    exact ht
  · rw [hk' a (lt_of_some hs'.obj)]; exact hs'.obj
  · intro t ht
    obtain ⟨l, hl⟩ := hs'.line t ht
    exact ⟨l, by rw [hk' _ (lt_of_some hl)]; exact hl⟩
  · intro b hb b1 b2
    rw [hk' b (by omega), hk.keep b hb b1 b2]
  · rw [hk' ac (lt_of_some hac1)]; exact hac1

/-- The results of `NextEntry` in the memory `h`; `ok` is the value for no error. The slices of the entry are in arrays at addresses from `N` on,
and the line is not. -/
def TestOut (m : Machine) (ok : Val) (N : Nat) (h : Heap) (line : Option Sl) (r : Except ParseErr TestDataEntry) (vs : List Val) : Prop :=
  match r with
  | .error e => vs = [.struct tTE (teFields none none), .err (some (errOf m e))]
  | .ok e => ∃ oIn oW ws, vs = [.struct tTE (teFields oIn oW), ok] ∧ ∃ N', N ≤ N' ∧ EntryAt N' h oIn oW ws e ∧ ∀ s, line = some s → s.a < N'

open Textseg.Spec in
theorem test_loop {σ : Type} (m : Machine) (hW : 32 ≤ m.W) (L d ac a id : Nat) (read : Reader σ) : ∀ (n n' pos : Nat) (s : Scanner σ) (h : Heap) (line : Option Sl), n ≤ n' →
    h[ac]? = some (.struct tTest [(name! "lineScan", .ptr tyScanner a)]) → ScanAt h a id pos line → (∀ s, line = some s → ac ≠ s.a) →
    GlobU h → Fresh 7 line → Scans m id pos read s →
    match NextTestEntry read n s with
    | .ok (r, s') => ∃ h' line' pos' vs, forever (ctxT m L (d + 2)) L testBody n' (envT ac) h = .ok (.ret vs, h') ∧ TestOut m .nil h.length h' line' r vs ∧
        ScanAt h' a id pos' line' ∧ Keeps a line h h' ∧ Fresh h.length line' ∧ Scans m id pos' read s'
    | .error p => p ≠ .outOfFuel → forever (ctxT m L (d + 2)) L testBody n' (envT ac) h = .error (.panic p) := by
  intro n
  induction n with
  | zero => intro n' pos s h line _ _ _ _ _ _ _ hp; exact absurd rfl hp
  | succ n ih =>
    intro n' pos s h line hn hac hsc hac' g hg hs
    obtain ⟨n', rfl⟩ : ∃ k, n' = k + 1 := ⟨n' - 1, by omega⟩
    have hl := hs.lines 0
    rw [Nat.add_zero, scanResult] at hl
    have el : (envT ac).length = 1 := rfl
    rw [forever_succ, el, NextTestEntry]
    rcases hr : s.Scan ScanLines read maxScanTokenSize with p | ⟨b, s'⟩
    · rw [hr] at hl
      intro _
      rw [testHead_panic m L d ac a id pos h line hac hsc p hl]
      rfl
    · rw [hr] at hl
      have hs' := scans_next hs hr
      cases b with
      | false =>
        obtain ⟨h', e, hsc', hk⟩ := testHead_false m L d ac a id pos h line hac hsc hl hac'
        have he := hs.err 0 (false, s') (by rw [scanResult, hr])
        refine ⟨h', none, pos + 1, _, by rw [e]; rfl, ?_, hsc', hk, (fun _ h => by cases h), hs'⟩
        rw [Nat.add_zero] at he
        rw [he]
        simp only [endOfLines]
        cases s'.Err <;> rfl
      | true =>
        obtain ⟨h', sl, o, N, e, hlo, hsc', hk, hle, hsN, hN, g', hac1⟩ := testHead_true m hW L d ac a id pos h line hac hsc _ hl hac' g hg
        have hlt := lt_of_some hac
        have hgl := g.len
        simp only [bind, Except.bind]
        rw [e, bindR_ok]
        rcases hp : parseTestLine (s'.Bytes.getD []) with x | _ | er | en
        · rw [hp] at hlo; exact hlo.elim
        · rw [hp] at hlo
          obtain ⟨env, rfl⟩ := hlo
          have e1 : leave 1 (Out.cont (env ++ envT ac)) = .cont (envT ac) := by simp [leave, envT]
          rw [e1]
          have := ih n' (pos + 1) s' h' (some sl) (by omega) hac1 hsc' (fun s hs => by cases hs; omega) g' (fun s hs => by cases hs; omega) hs'
          simp only []
          have hkl := hk.len
          rcases hq : NextTestEntry read n s' with p | ⟨r, s''⟩
          · rw [hq] at this
            exact this
          · rw [hq] at this
            obtain ⟨h2, line2, pos2, vs, f1, f2, f3, f4, f5, f6⟩ := this
            refine ⟨h2, line2, pos2, vs, f1, ?_, f3, hk.trans (fun s hs => by cases hs; exact hle) f4, fun s hs => ?_, f6⟩
            · cases r with
              | error e => exact f2
              | ok e =>
                obtain ⟨oIn, oW, ws, k1, N', k2, k3, k4⟩ := f2
                exact ⟨oIn, oW, ws, k1, N', by omega, k3, k4⟩
            · have := f5 s hs
              omega
        · rw [hp] at hlo
          cases hlo
          exact ⟨h', some sl, pos + 1, _, rfl, rfl, hsc', hk, fun s hs => by cases hs; exact hle, hs'⟩
        · rw [hp] at hlo
          obtain ⟨oIn, oW, ws, rfl, hE⟩ := hlo
          exact ⟨h', some sl, pos + 1, _, rfl, ⟨oIn, oW, ws, rfl, N, hN, hE, fun s hs => by cases hs; exact hsN⟩, hsc', hk, fun s hs => by cases hs; exact hle, hs'⟩

open Textseg.Spec in
/-- `sc.NextEntry()` -/
theorem NextTestEntry_spec {σ : Type} (m : Machine) (hW : 32 ≤ m.W) (L d a id : Nat) (read : Reader σ) (n pos : Nat) (s : Scanner σ) (h : Heap) (line : Option Sl) (hn : n ≤ L)
    (hsc : ScanAt h a id pos line) (g : GlobU h) (hg : Fresh 7 line) (hs : Scans m id pos read s) :
    match NextTestEntry read n s with
    | .ok (r, s') => ∃ h' line' pos' vs, R m L (d + 3) (.method (testVal a) (name! "NextEntry") []) h = .ok (vs, h') ∧ TestOut m (.err none) h.length h' line' r vs ∧
        ScanAt h' a id pos' line' ∧ Keeps a line h h' ∧ Fresh h.length line' ∧ Scans m id pos' read s'
    | .error p => p ≠ .outOfFuel → R m L (d + 3) (.method (testVal a) (name! "NextEntry") []) h = .error (.panic p) := by
  have e0 : R m L (d + 3) (.method (testVal a) (name! "NextEntry") []) h =
      bindR (bindR (forever (ctxT m L (d + 2)) L testBody L (envT h.length) (h ++ [.struct tTest [(name! "lineScan", .ptr tyScanner a)]]))
        fun o h => .ok (leave 1 o, h)) fun o h => bindR (andThen (ctxT m L (d + 2)) L 0 .nil o h) (returned (ctxT m L (d + 2)) fn_NextTestEntry.results) := by
    rw [testVal, R_NextTestEntry]
    have e1 : fn_NextTestEntry = ⟨some (name! "sc", .name (name! "TestDataScanner")), name! "NextEntry", [], fn_NextTestEntry.results, .cons (.loop .skip .omitted .skip testBody) .nil⟩ := rfl
    rw [e1, callWith_method]
    simp only [bindParams_cons, bindParams_nil, resolveT_Scanner, bindR_ok, assignTo_struct, declare, bind_apply, alloc_apply, pure_apply]
    rw [execs_cons, exec_forever, ← bindR_assoc]
    rfl
  have hlen : (h ++ [Obj.struct tTest [(name! "lineScan", .ptr tyScanner a)]]).length = h.length + 1 := by simp
  have hl0 : ∀ s, line = some s → s.a < h.length := fun s hs => by obtain ⟨l, hl⟩ := hsc.line s hs; exact lt_of_some hl
  have hloop := test_loop m hW L d h.length a id read n L pos s (h ++ [.struct tTest [(name! "lineScan", .ptr tyScanner a)]]) line hn push_new
    ⟨by rw [push_old (lt_of_some hsc.obj)]; exact hsc.obj, fun s hs => by rw [push_old (hl0 s hs)]; exact hsc.line s hs⟩
    (fun s hs => by have := hl0 s hs; omega)
    (g.keep fun b _ _ => push_old (by have := g.len; omega)) hg hs
  rw [e0]
  rcases hq : NextTestEntry read n s with p | ⟨r, s'⟩
  · rw [hq] at hloop
    intro hp
    rw [hloop hp]
    rfl
  · rw [hq] at hloop
    obtain ⟨h', line', pos', vs, f1, f2, f3, f4, f5, f6⟩ := hloop
    have hk : Keeps a line h h' := ⟨by have := f4.len; omega, fun b hb b1 b2 => by rw [f4.keep b (by omega) b1 b2, push_old hb]⟩
    have hf : Fresh h.length line' := fun s hs => by have := f5 s hs; omega
    rw [f1]
    have er : ∀ oIn oW, results (ctxT m L (d + 2)) fn_NextTestEntry.results [.struct tTE (teFields oIn oW), .nil] h' = .ok ([.struct tTE (teFields oIn oW), .err none], h') := by
      intro oIn oW
      simp [mem_exec, fn_NextTestEntry]
    have er' : ∀ (v : Option GoErr), results (ctxT m L (d + 2)) fn_NextTestEntry.results [.struct tTE (teFields none none), .err v] h' = .ok ([.struct tTE (teFields none none), .err v], h') := by
      intro v
      simp [mem_exec, fn_NextTestEntry]
    rcases r with e | e
    · cases f2
      exact ⟨h', line', pos', _, er' _, rfl, f3, hk, hf, f6⟩
    · obtain ⟨oIn, oW, ws, rfl, N', k2, k3⟩ := f2
      exact ⟨h', line', pos', _, er oIn oW, ⟨oIn, oW, ws, rfl, N', by omega, k3⟩, f3, hk, hf, f6⟩

/-- `ucdparse.NewTestDataScanner(r)` -/
theorem NewTestDataScanner_eq (m : Machine) (L d : Nat) (h : Heap) (id : Nat) :
    R m L (d + 1) (.func (name! "ucdparse") (name! "NewTestDataScanner") [.reader id]) h = .ok ([testVal h.length], h ++ [.scan id 0 none]) := by
  kernel_rfl

end Textseg.GoMem.TD
