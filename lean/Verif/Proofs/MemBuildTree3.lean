import Verif.Proofs.MemBuildTree2
/-!
# The code of `BuildRawPropertyTree` does what the model says: the loops over the entries of a file
-/

namespace Textseg.GoMem
open Textseg.GoLang (TyId tyInt tyU8 Halt importName wrap)
set_option linter.unusedSimpArgs false

open Textseg.Gen Textseg.Spec in
/-- The state while a file is read: the Scanner is at address `a`, the tree at address `p`. -/
structure FileAt {σ : Type} (m : Machine) (read : Reader σ) (h : Heap) (a id p : Nat) (x : Loc) (t : Tree) (s : Scanner σ) : Prop where
  ge : 7 ≤ a
  glob : GlobU h
  tree : TreeAt h p x t
  ops : ∃ ops IB PB, OpsInv ops t IB PB
  scan : ∃ pos line, ScanAt h a id pos line ∧ Fresh 7 line ∧ Scans m id pos read s ∧ ∀ s, line = some s → s.a ≠ x.aP ∧ s.a ≠ x.aI

/-- What is kept while a file is read: all but arrays, the Scanner and the tree. -/
structure Rest (a p : Nat) (h h' : Heap) : Prop where
  len : h.length ≤ h'.length
  keep : ∀ (b : Nat) (o : Obj), h[b]? = some o → (∀ l, o ≠ .arr l) → b ≠ a → b ≠ p → h'[b]? = some o

theorem Rest.trans {a p : Nat} {h h' h'' : Heap} (k : Rest a p h h') (k' : Rest a p h' h'') : Rest a p h h'' :=
  ⟨Nat.le_trans k.len k'.len, fun b o hb ho h1 h2 => k'.keep b o (k.keep b o hb ho h1 h2) ho h1 h2⟩

theorem Rest.grow {a p : Nat} {h h' : Heap} (hl : h.length ≤ h'.length) (hk : ∀ b, b < h.length → h'[b]? = h[b]?) : Rest a p h h' :=
  ⟨hl, fun b o hb _ _ _ => by rw [hk b (lt_of_some hb)]; exact hb⟩

theorem TreeAt.grow {h h' : Heap} {p x t} (ht : TreeAt h p x t) (hk : ∀ b, b < h.length → h'[b]? = h[b]?) : TreeAt h' p x t where
  obj := by rw [hk _ (lt_of_some ht.obj)]; exact ht.obj
  props := by rw [hk _ (lt_of_some ht.props)]; exact ht.props
  inds := by rw [hk _ (lt_of_some ht.inds)]; exact ht.inds
  zero0 := by rw [hk _ (lt_of_some ht.zero0)]; exact ht.zero0
  zero1 := by rw [hk _ (lt_of_some ht.zero1)]; exact ht.zero1
  geP := ht.geP
  geI := ht.geI
  ne := ht.ne
  capP := ht.capP
  capI := ht.capI

section
variable {σ : Type} {m : Machine} {read : Reader σ} {h : Heap} {a id p : Nat} {x : Loc} {t : Gen.Tree} {s : Scanner σ}

theorem FileAt.grow (f : FileAt m read h a id p x t s) {h' : Heap} (hk : ∀ b, b < h.length → h'[b]? = h[b]?) : FileAt m read h' a id p x t s where
  ge := f.ge
  glob := f.glob.keep fun b _ _ => hk b (by have := f.glob.len; omega)
  tree := f.tree.grow hk
  ops := f.ops
  scan := by
    obtain ⟨pos, line, hs, h1, h2, h3⟩ := f.scan
    refine ⟨pos, line, ⟨?_, ?_⟩, h1, h2, h3⟩
    · rw [hk _ (lt_of_some hs.obj)]; exact hs.obj
    · intro s hs'
      obtain ⟨l, hl⟩ := hs.line s hs'
      exact ⟨l, by rw [hk _ (lt_of_some hl)]; exact hl⟩

theorem FileAt.p_ge (f : FileAt m read h a id p x t s) : 7 ≤ p := by
  have h0 := f.tree.p_ge
  have h1 := f.tree.obj
  have g := f.glob
  rcases Nat.lt_or_ge p 7 with hp | hp
  · have : p = 2 ∨ p = 3 ∨ p = 4 ∨ p = 5 ∨ p = 6 := by omega
    rcases this with rfl | rfl | rfl | rfl | rfl
    · rw [g.comment] at h1; cases h1
    · rw [g.field] at h1; cases h1
    · rw [g.range] at h1; cases h1
    · rw [g.split] at h1; cases h1
    · rw [g.nonsplit] at h1; cases h1
  · exact hp

theorem FileAt.moves (f : FileAt m read h a id p x t s) {h' : Heap} {x' : Loc} {t' : Gen.Tree} (ht : TreeAt h' p x' t') (hm : Moves p h x h' x')
    (ho : ∃ ops IB PB, Gen.OpsInv ops t' IB PB) : FileAt m read h' a id p x' t' s where
  ge := f.ge
  glob := f.glob.keep fun b _ _ => hm.keep b (by have := f.glob.len; omega) (by have := f.p_ge; omega) (by have := f.tree.geP; omega) (by have := f.tree.geI; omega)
  tree := ht
  ops := ho
  scan := by
    obtain ⟨pos, line, hs, h1, h2, h3⟩ := f.scan
    refine ⟨pos, line, ⟨?_, ?_⟩, h1, h2, ?_⟩
    · rw [hm.keep _ (lt_of_some hs.obj) (by rintro rfl; have := hs.obj; rw [f.tree.obj] at this; cases this)
        (by rintro rfl; have := hs.obj; rw [f.tree.props] at this; cases this) (by rintro rfl; have := hs.obj; rw [f.tree.inds] at this; cases this)]
      exact hs.obj
    · intro s hs'
      obtain ⟨l, hl⟩ := hs.line s hs'
      obtain ⟨n1, n2⟩ := h3 s hs'
      refine ⟨l, ?_⟩
      rw [hm.keep _ (lt_of_some hl) (by intro e; rw [e, f.tree.obj] at hl; cases hl) n1 n2]
      exact hl
    · intro s hs'
      obtain ⟨l, hl⟩ := hs.line s hs'
      obtain ⟨n1, n2⟩ := h3 s hs'
      have l1 := lt_of_some hl
      have := hm.aP
      have := hm.aI
      omega

theorem Rest.moves (f : TreeAt h p x t) {h' : Heap} {x' : Loc} (hm : Moves p h x h' x') : Rest a p h h' where
  len := hm.len
  keep := by
    intro b o hb ho h1 h2
    rw [hm.keep b (lt_of_some hb) h2 (by rintro rfl; rw [f.props] at hb; cases hb; exact ho _ rfl) (by rintro rfl; rw [f.inds] at hb; cases hb; exact ho _ rfl)]
    exact hb

theorem FileAt.next (f : FileAt m read h a id p x t s) {pos : Nat} {line : Option Sl} (hsc : ScanAt h a id pos line) (hf : Fresh 7 line)
    (hne : ∀ s, line = some s → s.a ≠ x.aP ∧ s.a ≠ x.aI) {h' : Heap} {line' : Option Sl} {pos' : Nat} {s' : Scanner σ}
    (hs' : ScanAt h' a id pos' line') (hk : Keeps a line h h') (hf' : Fresh h.length line') (hS : Spec.Scans m id pos' read s') :
    FileAt m read h' a id p x t s' where
  ge := f.ge
  glob := f.glob.keep fun b b1 b2 => hk.keep b (by have := f.glob.len; omega) (by have := f.ge; omega) (fun s hs => by have := hf s hs; omega)
  tree := {
    obj := by
      rw [hk.keep p (lt_of_some f.tree.obj) (by rintro rfl; have := hsc.obj; rw [f.tree.obj] at this; cases this) (fun s hs e => by
        obtain ⟨l, hl⟩ := hsc.line s hs
        rw [← e, f.tree.obj] at hl
        cases hl)]
      exact f.tree.obj
    props := by
      rw [hk.keep _ (lt_of_some f.tree.props) (fun e => by have := hsc.obj; rw [← e, f.tree.props] at this; cases this) (fun s hs e => (hne s hs).1 e.symm)]
      exact f.tree.props
    inds := by
      rw [hk.keep _ (lt_of_some f.tree.inds) (fun e => by have := hsc.obj; rw [← e, f.tree.inds] at this; cases this) (fun s hs e => (hne s hs).2 e.symm)]
      exact f.tree.inds
    zero0 := by
      rw [hk.keep 0 (lt_of_some f.tree.zero0) (by have := f.ge; omega) (fun s hs => by have := hf s hs; omega)]
      exact f.tree.zero0
    zero1 := by
      rw [hk.keep 1 (lt_of_some f.tree.zero1) (by have := f.ge; omega) (fun s hs => by have := hf s hs; omega)]
      exact f.tree.zero1
    geP := f.tree.geP
    geI := f.tree.geI
    ne := f.tree.ne
    capP := f.tree.capP
    capI := f.tree.capI }
  ops := f.ops
  scan := by
    refine ⟨pos', line', hs', fun s hs => ?_, hS, fun s hs => ?_⟩
    · have := hf' s hs
      have := f.glob.len
      omega
    · have := hf' s hs
      have := lt_of_some f.tree.props
      have := lt_of_some f.tree.inds
      omega

theorem Rest.next {pos : Nat} {line : Option Sl} (hsc : ScanAt h a id pos line) {h' : Heap} (hk : Keeps a line h h') : Rest a p h h' where
  len := hk.len
  keep := by
    intro b o hb ho h1 h2
    rw [hk.keep b (lt_of_some hb) h1 (fun s hs e => by
      obtain ⟨l, hl⟩ := hsc.line s hs
      rw [← e, hb] at hl
      cases hl
      exact ho _ rfl)]
    exact hb
end

/-- The beginning of the body of the loop over a file. -/
def headS (sc msg : Nat) (rest : Stmts) : Stmts :=
  .cons (.define [name! "entry", name! "err"] (.cons (.call (.sel (.ident sc) (name! "NextEntry")) .nil) .nil))
  (.cons (.ifThen .skip (.bin .eq (.ident (name! "err")) (.sel (.ident (name! "io")) (name! "EOF"))) (.cons .brk .nil)
    (.cons (.ifThen .skip (.bin .ne (.ident (name! "err")) (.ident (name! "nil"))) (.cons (.ret (.cons (.ident (name! "ret"))
      (.cons (.call (.sel (.ident (name! "fmt")) (name! "Errorf")) (.cons (.str msg) (.cons (.ident (name! "err")) .nil))) .nil))) .nil) .nil) .nil)) rest)

/-- The variables of `BuildRawPropertyTree` that the loop over a file uses. -/
structure EnvF (env : Env) (sc ac ar p : Nat) : Prop where
  sc : env.get sc = some (.cell tScan ac)
  ret : env.get (name! "ret") = some (.cell tRaw ar)
  tip : env.get (name! "tip") = some (.ptr tTree p)
  io : env.get (name! "io") = none
  fmt : env.get (name! "fmt") = none
  nil : env.get (name! "nil") = none
  uint8 : env.get (name! "uint8") = none
  charprops : env.get (name! "charprops") = none
  slices : env.get (name! "slices") = none
  len : env.get (name! "len") = none

section
variable (m : Machine) (L d : Nat) (h : Heap)
@[mem_exec] theorem ctx_io : (ctx m L d).imported (name! "io") = true := by kernel_rfl
@[mem_exec] theorem ctx_os : (ctx m L d).imported (name! "os") = true := by kernel_rfl
@[mem_exec] theorem ctx_filepath : (ctx m L d).imported (name! "filepath") = true := by kernel_rfl
@[mem_exec] theorem ctx_slices : (ctx m L d).imported (name! "slices") = true := by kernel_rfl
@[mem_exec] theorem ctx_charprops : (ctx m L d).imported (name! "charprops") = true := by kernel_rfl
@[mem_exec] theorem ctx_ucdparse : (ctx m L d).imported (name! "ucdparse") = true := by kernel_rfl
@[mem_exec] theorem global_EOF : (ctx m L (d + 1)).global (name! "io") (name! "EOF") h = .ok (.err (some (.io .eof)), h) := by kernel_rfl
@[mem_exec] theorem global_nil : globalOrPredeclared (ctx m L d) (name! "nil") h = .ok (.nil, h) := by kernel_rfl
@[mem_exec] theorem callQ_Errorf (s : GoString) (e : Option GoErr) : callQualified (ctx m L d) (name! "fmt") (name! "Errorf") [.str s, .err e] h =
    .ok ([.err (some (.text (m.sprintf [.str s, .err e])))], h) := by kernel_rfl
@[mem_exec] theorem callQ_Join (args : List Val) : callQualified (ctx m L d) (name! "filepath") (name! "Join") args h =
    .ok ([.str (m.join args)], h) := by kernel_rfl
@[mem_exec] theorem callQ_GCB (args : List Val) : callQualified (ctx m L d) (name! "charprops") (name! "LookupGCBProperty") args h =
    R m L d (.func (name! "charprops") (name! "LookupGCBProperty") args) h := by kernel_rfl
@[mem_exec] theorem callQ_Emoji (args : List Val) : callQualified (ctx m L d) (name! "charprops") (name! "LookupEmojiProperty") args h =
    R m L d (.func (name! "charprops") (name! "LookupEmojiProperty") args) h := by kernel_rfl
@[mem_exec] theorem callQ_InCB (args : List Val) : callQualified (ctx m L d) (name! "charprops") (name! "LookupInCBProperty") args h =
    R m L d (.func (name! "charprops") (name! "LookupInCBProperty") args) h := by kernel_rfl
@[mem_exec] theorem callQ_NewScanner (args : List Val) : callQualified (ctx m L d) (name! "ucdparse") (name! "NewScanner") args h =
    R m L d (.func (name! "ucdparse") (name! "NewScanner") args) h := by kernel_rfl
@[mem_exec] theorem callQ_Collect (f : Val) : callQualified (ctx m L d) (name! "slices") (name! "Collect") [f] h = collectOf (ctx m L d) f h := by kernel_rfl
theorem binary_errEOF (W : Nat) (e : Option GoErr) : binary W .eq (.err e) (.err (some (.io .eof))) h = .ok (.bool (decide (e = some (.io .eof))), h) := by
  simp only [binary, typeOf, sameOp]
  rw [if_pos (.inr (by simp))]; rfl
end

/-- The error that is returned for the error `e` of a file. -/
def wrapped (m : Machine) (msg : Nat) (e : ParseErr) : GoErr := .text (m.sprintf [.str (textLine msg), .err (some (Spec.parseError m e))])

open Textseg.Gen Textseg.Spec in
/-- `entry, err := sc.NextEntry()`, and what is done if there is an error. -/
theorem head_spec {σ : Type} (m : Machine) (L d : Nat) (read : Reader σ) (n : Nat) (s : Scanner σ) (h : Heap) (a id p ac ar : Nat) (x : Loc) (t : Tree)
    (env : Env) (sc msg : Nat) (rest : Stmts) (rf : List (Nat × Val)) (he : EnvF env sc ac ar p) (hn : n ≤ L) (f : FileAt m read h a id p x t s)
    (hac : h[ac]? = some (.struct tScan [(name! "lineScan", .ptr tyScanner a)])) (har : h[ar]? = some (.struct tRaw rf)) :
    match NextEntry read n s with
    | .ok (.ok e, s') => ∃ h' ae o, execs (ctx m L (d + 5)) L (headS sc msg rest) env.length env h =
          execs (ctx m L (d + 5)) L rest env.length ((name! "err", .err none) :: (name! "entry", .cell tEntry ae) :: env) h' ∧
        FileAt m read h' a id p x t s' ∧ Rest a p h h' ∧ BytesAt h' o e.Fields ∧ h'[ae]? = some (.struct tEntry (entryFields e.Start e.End o))
    | .ok (.error e, s') => ∃ h', (if e = .io .eof then ∃ ve vr, execs (ctx m L (d + 5)) L (headS sc msg rest) env.length env h =
            .ok (.brk (ve :: vr :: env), h')
          else execs (ctx m L (d + 5)) L (headS sc msg rest) env.length env h = .ok (.ret [.struct tRaw rf, .err (some (wrapped m msg e))], h')) ∧
        FileAt m read h' a id p x t s' ∧ Rest a p h h'
    | .error q => q ≠ .outOfFuel → execs (ctx m L (d + 5)) L (headS sc msg rest) env.length env h = .error (.panic q) := by
  obtain ⟨pos, line, hsc, hf, hS, hne⟩ := f.scan
  have hnx := NextEntry_spec m L (d + 2) a id read n pos s h line hn hsc f.glob hf hS
  have hld := load_some hac
  unfold scanVal at hnx
  rcases hq : NextEntry read n s with q | ⟨e | e, s'⟩
  · simp only [hq] at hnx
    intro hp
    have := hnx hp
    simp [mem_exec, headS, he.sc, loadStruct, hld, this]
  · simp only [hq] at hnx
    obtain ⟨h1, line', pos', vs, e1, hv, hsc', hk, hf', hS'⟩ := hnx
    have f1 := f.next hsc hf hne hsc' hk hf' hS'
    have r1 : Rest a p h h1 := Rest.next hsc hk
    have hgr : ∀ o b, b < h1.length → (h1 ++ [o])[b]? = h1[b]? := fun o b hb => push_old hb
    have har1 : h1[ar]? = some (.struct tRaw rf) := r1.keep ar _ har (fun l e => nomatch e)
      (by rintro rfl; rw [hsc.obj] at har; cases har) (by rintro rfl; rw [f.tree.obj] at har; cases har)
    have hld1 := fun o => load_some (h := h1 ++ [o]) (by rw [push_old (lt_of_some har1)]; exact har1)
    refine ⟨h1 ++ [.struct tEntry (entryFields 0 0 none)], ?_, f1.grow (hgr _), r1.trans (Rest.grow (by simp) (hgr _))⟩
    cases hv
    unfold entryVal at e1
    unfold entryFields
    cases e with
    | io e =>
      simp only [parseError] at e1
      by_cases hE : e = .eof
      · subst hE
        rw [if_pos rfl]
        refine ⟨(name! "err", .err (some (.io .eof))), (name! "entry", .cell tEntry h1.length), ?_⟩
        simp [mem_exec, headS, he.sc, he.io, loadStruct, hld, e1, binary_errEOF]
      · rw [if_neg (by simp [hE])]
        simp [wrapped, parseError, mem_exec, headS, he.sc, he.io, he.nil, he.fmt, he.ret, loadStruct, hld, e1, binary_errEOF, hE, hld1]
    | invalidStart b =>
      simp only [parseError] at e1
      rw [if_neg (by simp)]
      simp [wrapped, parseError, mem_exec, headS, he.sc, he.io, he.nil, he.fmt, he.ret, loadStruct, hld, e1, binary_errEOF, hld1]
    | invalidEnd b =>
      simp only [parseError] at e1
      rw [if_neg (by simp)]
      simp [wrapped, parseError, mem_exec, headS, he.sc, he.io, he.nil, he.fmt, he.ret, loadStruct, hld, e1, binary_errEOF, hld1]
    | invalidChar b =>
      simp only [parseError] at e1
      rw [if_neg (by simp)]
      simp [wrapped, parseError, mem_exec, headS, he.sc, he.io, he.nil, he.fmt, he.ret, loadStruct, hld, e1, binary_errEOF, hld1]
  · simp only [hq] at hnx
    obtain ⟨h1, line', pos', vs, e1, ⟨o, rfl, hb, -⟩, hsc', hk, hf', hS'⟩ := hnx
    have f1 := f.next hsc hf hne hsc' hk hf' hS'
    have r1 : Rest a p h h1 := Rest.next hsc hk
    have hgr : ∀ o b, b < h1.length → (h1 ++ [o])[b]? = h1[b]? := fun o b hb => push_old hb
    refine ⟨h1 ++ [.struct tEntry (entryFields e.Start e.End o)], h1.length, o, ?_, f1.grow (hgr _), r1.trans (Rest.grow (by simp) (hgr _)),
      hb.keep (fun s hs => hgr _ _ (by subst hs; obtain ⟨l, hl, _⟩ := hb; exact lt_of_some hl)), push_new⟩
    unfold entryVal at e1
    unfold entryFields
    simp [mem_exec, headS, he.sc, he.io, he.nil, loadStruct, hld, e1, binary_errEOF]

end Textseg.GoMem
