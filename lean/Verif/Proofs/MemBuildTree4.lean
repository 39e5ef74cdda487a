import Verif.Proofs.MemBuildTree3
/-!
# The code of `BuildRawPropertyTree` does what the model says: reading the files
-/

namespace Textseg.GoMem
open Textseg.GoLang (TyId tyInt tyU8 Halt importName wrap)
set_option linter.unusedSimpArgs false

@[mem_exec] theorem sub2 (n : Nat) : n + 1 + 1 - n = 2 := by omega
@[mem_exec] theorem sub3 (n : Nat) : n + 1 + 1 + 1 - n = 3 := by omega
@[mem_exec] theorem sub4 (n : Nat) : n + 1 + 1 + 1 + 1 - n = 4 := by omega
@[mem_exec] theorem sub5 (n : Nat) : n + 1 + 1 + 1 + 1 + 1 - n = 5 := by omega

open Textseg.Gen Textseg.Spec in
/-- What `rest` has to do with an entry: what `op` does with the tree. -/
def RestSpec (m : Machine) (op : Tree → Entry → Go Tree) (rest : Stmts) : Prop :=
  ∀ (σ : Type) (read : Reader σ) (e : Entry), ∃ b, ∀ (L d : Nat) (h : Heap) (a id p ae sc ac ar : Nat) (x : Loc) (t : Tree) (s : Scanner σ) (o : Option Sl) (env : Env),
    b ≤ L → EnvF env sc ac ar p → FileAt m read h a id p x t s → BytesAt h o e.Fields → h[ae]? = some (.struct tEntry (entryFields e.Start e.End o)) →
    match op t e with
    | .ok t' => ∃ out h' x', execs (ctx m L (d + 5)) L rest env.length ((name! "err", .err none) :: (name! "entry", .cell tEntry ae) :: env) h = .ok (out, h') ∧
        (leave env.length out = .next env ∨ leave env.length out = .cont env) ∧ FileAt m read h' a id p x' t' s ∧ Rest a p h h'
    | .error _ => ∃ er, execs (ctx m L (d + 5)) L rest env.length ((name! "err", .err none) :: (name! "entry", .cell tEntry ae) :: env) h = .error (.panic er)

open Textseg.Gen Textseg.Spec in
/-- The loop over a file. -/
theorem file_loop {σ : Type} (m : Machine) (read : Reader σ) (op : Tree → Entry → Go Tree) (rest : Stmts) (hr : RestSpec m op rest) (sc msg : Nat) :
    ∀ (n : Nat) (s : Scanner σ) (t : Tree),
    match readFile read op n s t with
    | .ok (.ok t') => ∃ b, ∀ (L d k : Nat) (h : Heap) (a id p ac ar : Nat) (x : Loc) (env : Env) (rf : List (Nat × Val)), b ≤ L → b ≤ k → EnvF env sc ac ar p →
        FileAt m read h a id p x t s → h[ac]? = some (.struct tScan [(name! "lineScan", .ptr tyScanner a)]) → h[ar]? = some (.struct tRaw rf) →
        ∃ h' x' s', forever (ctx m L (d + 5)) L (headS sc msg rest) k env h = .ok (.next env, h') ∧ FileAt m read h' a id p x' t' s' ∧ Rest a p h h'
    | .ok (.error e) => ∃ b, ∀ (L d k : Nat) (h : Heap) (a id p ac ar : Nat) (x : Loc) (env : Env) (rf : List (Nat × Val)), b ≤ L → b ≤ k → EnvF env sc ac ar p →
        FileAt m read h a id p x t s → h[ac]? = some (.struct tScan [(name! "lineScan", .ptr tyScanner a)]) → h[ar]? = some (.struct tRaw rf) →
        ∃ h', forever (ctx m L (d + 5)) L (headS sc msg rest) k env h = .ok (.ret [.struct tRaw rf, .err (some (wrapped m msg e))], h')
    | .error q => q ≠ .outOfFuel → ∃ b, ∀ (L d k : Nat) (h : Heap) (a id p ac ar : Nat) (x : Loc) (env : Env) (rf : List (Nat × Val)), b ≤ L → b ≤ k → EnvF env sc ac ar p →
        FileAt m read h a id p x t s → h[ac]? = some (.struct tScan [(name! "lineScan", .ptr tyScanner a)]) → h[ar]? = some (.struct tRaw rf) →
        ∃ er, forever (ctx m L (d + 5)) L (headS sc msg rest) k env h = .error (.panic er) := by
  intro n
  induction n with
  | zero => intro s t hq; exact absurd rfl hq
  | succ n ih =>
    intro s t
    have hh := fun L d h a id p ac ar x env rf he hL f hac har => head_spec m L d read (n + 1) s h a id p ac ar x t env sc msg rest rf he hL f hac har
    rw [readFile]
    rcases hq : NextEntry read (n + 1) s with q | ⟨e | e, s'⟩
    · simp only [hq] at hh
      intro hne
      refine ⟨n + 1, fun L d k h a id p ac ar x env rf hL hk he f hac har => ⟨q, ?_⟩⟩
      obtain ⟨k, rfl⟩ : ∃ j, k = j + 1 := ⟨k - 1, by omega⟩
      rw [forever_succ, hh L d h a id p ac ar x env rf he hL f hac har hne]
      rfl
    · simp only [hq] at hh
      by_cases hE : e = .io .eof
      · simp only [bind, Except.bind, hE, if_true]
        simp only [hE, if_true] at hh
        refine ⟨n + 1, fun L d k h a id p ac ar x env rf hL hk he f hac har => ?_⟩
        obtain ⟨k, rfl⟩ : ∃ j, k = j + 1 := ⟨k - 1, by omega⟩
        obtain ⟨h', ⟨ve, vr, e1⟩, f', r'⟩ := hh L d h a id p ac ar x env rf he hL f hac har
        refine ⟨h', x, s', ?_, f', r'⟩
        rw [forever_succ, e1]
        simp [mem_exec, foreverNext]
      · simp only [bind, Except.bind, hE, if_false]
        simp only [hE, if_false] at hh
        refine ⟨n + 1, fun L d k h a id p ac ar x env rf hL hk he f hac har => ?_⟩
        obtain ⟨k, rfl⟩ : ∃ j, k = j + 1 := ⟨k - 1, by omega⟩
        obtain ⟨h', e1, -⟩ := hh L d h a id p ac ar x env rf he hL f hac har
        refine ⟨h', ?_⟩
        rw [forever_succ, e1]
        rfl
    · simp only [hq] at hh
      simp only [bind, Except.bind]
      obtain ⟨b, hb⟩ := hr σ read e
      -- one iteration
      have step : ∀ (L d k : Nat) (h : Heap) (a id p ac ar : Nat) (x : Loc) (env : Env) (rf : List (Nat × Val)), b + (n + 1) ≤ L → EnvF env sc ac ar p →
          FileAt m read h a id p x t s → h[ac]? = some (.struct tScan [(name! "lineScan", .ptr tyScanner a)]) → h[ar]? = some (.struct tRaw rf) →
          match op t e with
          | .ok t' => ∃ h' x', forever (ctx m L (d + 5)) L (headS sc msg rest) (k + 1) env h = forever (ctx m L (d + 5)) L (headS sc msg rest) k env h' ∧
              FileAt m read h' a id p x' t' s' ∧ Rest a p h h' ∧ h'[ac]? = some (.struct tScan [(name! "lineScan", .ptr tyScanner a)]) ∧ h'[ar]? = some (.struct tRaw rf)
          | .error _ => ∃ er, forever (ctx m L (d + 5)) L (headS sc msg rest) (k + 1) env h = .error (.panic er) := by
        intro L d k h a id p ac ar x env rf hL he f hac har
        obtain ⟨h1, ae, o, e1, f1, r1, hby, hae⟩ := hh L d h a id p ac ar x env rf he (by omega) f hac har
        have := hb L d h1 a id p ae sc ac ar x t s' o env (by omega) he f1 hby hae
        rw [forever_succ, e1]
        rcases ho : op t e with q | t'
        · rw [ho] at this
          obtain ⟨er, e2⟩ := this
          exact ⟨er, by rw [e2]; rfl⟩
        · rw [ho] at this
          obtain ⟨out, h2, x2, e2, hlv, f2, r2⟩ := this
          have r3 := r1.trans r2
          obtain ⟨pos, line, hsc, -⟩ := f.scan
          have keep : ∀ (b : Nat) (t : TyId) (fs : List (Nat × Val)), t ≠ tTree → h[b]? = some (Obj.struct t fs) → h2[b]? = some (Obj.struct t fs) := by
            intro b t' fs hne hb
            refine r3.keep b _ hb (fun l e => nomatch e) (by rintro rfl; rw [hsc.obj] at hb; cases hb) ?_
            rintro rfl
            rw [f.tree.obj] at hb
            cases hb
            exact hne rfl
          refine ⟨h2, x2, ?_, f2, r3, keep ac _ _ (by decide) hac, keep ar _ _ (by decide) har⟩
          rw [e2, bindR_ok]
          rcases hlv with e | e <;> rw [e] <;> rfl
      rcases ho : op t e with q | t'
      · simp only [ho] at step ⊢
        intro _
        refine ⟨b + (n + 1), fun L d k h a id p ac ar x env rf hL hk he f hac har => ?_⟩
        obtain ⟨k, rfl⟩ : ∃ j, k = j + 1 := ⟨k - 1, by omega⟩
        exact step L d k h a id p ac ar x env rf hL he f hac har
      · simp only [ho] at step ⊢
        have hi := ih s' t'
        rcases hrf : readFile read op n s' t' with q | (e' | t'')
        · simp only [hrf] at hi ⊢
          intro hne
          obtain ⟨b', hi⟩ := hi hne
          refine ⟨b + (n + 1) + b', fun L d k h a id p ac ar x env rf hL hk he f hac har => ?_⟩
          obtain ⟨k, rfl⟩ : ∃ j, k = j + 1 := ⟨k - 1, by omega⟩
          obtain ⟨h', x', e1, f', r', hac', har'⟩ := step L d k h a id p ac ar x env rf (by omega) he f hac har
          rw [e1]
          exact hi L d k h' a id p ac ar x' env rf (by omega) (by omega) he f' hac' har'
        · simp only [hrf] at hi ⊢
          obtain ⟨b', hi⟩ := hi
          refine ⟨b + (n + 1) + b', fun L d k h a id p ac ar x env rf hL hk he f hac har => ?_⟩
          obtain ⟨k, rfl⟩ : ∃ j, k = j + 1 := ⟨k - 1, by omega⟩
          obtain ⟨h', x', e1, f', r', hac', har'⟩ := step L d k h a id p ac ar x env rf (by omega) he f hac har
          rw [e1]
          exact hi L d k h' a id p ac ar x' env rf (by omega) (by omega) he f' hac' har'
        · simp only [hrf] at hi ⊢
          obtain ⟨b', hi⟩ := hi
          refine ⟨b + (n + 1) + b', fun L d k h a id p ac ar x env rf hL hk he f hac har => ?_⟩
          obtain ⟨k, rfl⟩ : ∃ j, k = j + 1 := ⟨k - 1, by omega⟩
          obtain ⟨h', x', e1, f', r', hac', har'⟩ := step L d k h a id p ac ar x env rf (by omega) he f hac har
          obtain ⟨h2, x2, s2, e2, f2, r2⟩ := hi L d k h' a id p ac ar x' env rf (by omega) (by omega) he f' hac' har'
          exact ⟨h2, x2, s2, e1.trans e2, f2, r'.trans r2⟩

/-- The rest of the body of the loop over GraphemeBreakProperty.txt -/
def rest1 : Stmts := dropS 2 (loopBody (stmtAt 14 fn_BuildRawPropertyTree.body))
/-- The rest of the body of the loop over emoji-data.txt -/
def rest2 : Stmts := dropS 2 (loopBody (stmtAt 15 fn_BuildRawPropertyTree.body))
/-- The rest of the body of the loop over DerivedCoreProperties.txt -/
def rest3 : Stmts := dropS 2 (loopBody (stmtAt 16 fn_BuildRawPropertyTree.body))

open Textseg.Gen Textseg.Spec in
/-- The loop over the characters of an entry. -/
theorem loopR_spec {σ : Type} (m : Machine) (hW : 32 ≤ m.W) (L d : Nat) (read : Reader σ) {env : Env} {ae p : Nat} {t0 : TyId} {v : UInt8} (he : EnvR env ae p t0 v) (f : Nat) (mk : Int32 → TableOp)
    (hbody : ∀ r n h, execs (ctx m L (d + 5)) L (bodyR f) n ((name! "r", .rune tyRune r) :: env) h =
      bindR (R m L (d + 5) (opCall (.ptr tTree p) (mk r)) h) fun _ h => .ok (.next ((name! "r", .rune tyRune r) :: env), h))
    (e : Entry) (o : Option Sl) (a id base : Nat) (h : Heap) (x : Loc) (t : Tree) (s : Scanner σ) (hL : rangeCount e + 1 ≤ L)
    (fa : FileAt m read h a id p x t s) (hae : h[ae]? = some (.struct tEntry (entryFields e.Start e.End o))) :
    match forRange (fun t r => runOp t (mk r)) (rangeCount e) e.Start t with
    | .ok t' => ∃ h' x', exec (ctx m L (d + 5)) L (loopR f) base env h = .ok (.next env, h') ∧ FileAt m read h' a id p x' t' s ∧ Rest a p h h'
    | .error _ => ∃ er, exec (ctx m L (d + 5)) L (loopR f) base env h = .error (.panic er) := by
  obtain ⟨ops, IB, PB, hv⟩ := fa.ops
  have hl := rune_loop m hW L d he f mk hbody e.Start e.End o (rangeCount e) L e.Start h x t ops IB PB rfl hL fa.tree hv hae
  have hld := load_some hae
  have e1 : exec (ctx m L (d + 5)) L (.define [name! "r"] (.cons (.sel (.ident (name! "entry")) (name! "Start")) .nil)) env.length env h =
      .ok (.next ((name! "r", .rune tyRune e.Start) :: env), h) := by
    simp [mem_exec, he.entry, loadStruct, hld, entryFields]
  have e2 : exec (ctx m L (d + 5)) L (loopR f) base env h =
      bindR (forLoop (ctx m L (d + 5)) L condR postR (bodyR f) L ((name! "r", .rune tyRune e.Start) :: env) h) fun o h => .ok (leave env.length o, h) := by
    rw [loopR, condR, exec_for, e1]; rfl
  rw [e2]
  rcases hr : forRange (fun t r => runOp t (mk r)) (rangeCount e) e.Start t with q | t'
  · rw [hr] at hl
    obtain ⟨er, hl⟩ := hl
    exact ⟨er, by rw [hl]; rfl⟩
  · rw [hr] at hl
    obtain ⟨h', x', r', hl, ht', hm, ho⟩ := hl
    refine ⟨h', x', ?_, fa.moves ht' hm ho, Rest.moves fa.tree hm⟩
    rw [hl]
    simp [mem_exec]

theorem rest1_eq : rest1 = .cons (.define [name! "propName"] (.cons (.call (.sel (.ident (name! "entry")) (name! "FirstField")) .nil) .nil))
    (.cons (.define [name! "prop"] (.cons (.call (.sel (.ident (name! "charprops")) (name! "LookupGCBProperty")) (.cons (.ident (name! "propName")) .nil)) .nil))
    (.cons (loopR (name! "Set")) .nil)) := rfl

open Textseg.Gen Textseg.Spec in
theorem rest1_spec (m : Machine) (hW : 32 ≤ m.W) : RestSpec m gbpEntry rest1 := by
  intro σ read e
  refine ⟨rangeCount e + 1, fun L d h a id p ae sc ac ar x t s o env hL he f hb hae => ?_⟩
  obtain ⟨ob, e1⟩ := FirstField_eq m L (d + 2) h e.Start e.End o e.Fields hb f.glob
  have hgr : ∀ b, b < h.length → (h ++ [ob])[b]? = h[b]? := fun b hb => push_old hb
  have e2 := LookupGCB_eq m L (d + 2) (h ++ [ob]) (firstString e.Fields)
  have hld := load_some hae
  have her : EnvR ((name! "prop", .u8 tGCB (LookupGCBProperty (firstString e.Fields))) :: (name! "propName", .str (firstString e.Fields)) ::
      (name! "err", .err none) :: (name! "entry", .cell tEntry ae) :: env) ae p tGCB (LookupGCBProperty (firstString e.Fields)) :=
    ⟨rfl, he.tip, rfl, he.uint8⟩
  have hl := loopR_spec m hW L d read her (name! "Set") (fun r => .set r (LookupGCBProperty (firstString e.Fields))) (fun r n h => bodySet_eq m L (d + 5) h her r n)
    e o a id env.length (h ++ [ob]) x t s hL (f.grow hgr) (by rw [hgr _ (lt_of_some hae)]; exact hae)
  have e3 : execs (ctx m L (d + 5)) L rest1 env.length ((name! "err", .err none) :: (name! "entry", .cell tEntry ae) :: env) h =
      execs (ctx m L (d + 5)) L (.cons (loopR (name! "Set")) .nil) env.length ((name! "prop", .u8 tGCB (LookupGCBProperty (firstString e.Fields))) :: (name! "propName", .str (firstString e.Fields)) ::
      (name! "err", .err none) :: (name! "entry", .cell tEntry ae) :: env) (h ++ [ob]) := by
    rw [rest1_eq]
    unfold entryVal at e1
    unfold entryFields at hld
    simp [mem_exec, loadStruct, hld, e1, he.charprops, e2]
  rw [e3]
  have e4 : gbpEntry t e = forRange (fun t r => runOp t (.set r (LookupGCBProperty (firstString e.Fields)))) (rangeCount e) e.Start t := rfl
  rw [e4]
  rcases hr : forRange (fun t r => runOp t (.set r (LookupGCBProperty (firstString e.Fields)))) (rangeCount e) e.Start t with q | t'
  · rw [hr] at hl
    obtain ⟨er, hl⟩ := hl
    exact ⟨er, by rw [execs_cons, hl]; rfl⟩
  · rw [hr] at hl
    obtain ⟨h', x', hl, f', r'⟩ := hl
    refine ⟨_, h', x', by rw [execs_cons, hl]; rfl, .inl ?_, f', (Rest.grow (by simp) hgr).trans r'⟩
    simp [mem_exec]

end Textseg.GoMem
