import Verif.Proofs.MemBuildTree5
/-!
# The code of `BuildRawPropertyTree` does what the model says: up to the loops
-/

namespace Textseg.GoMem
open Textseg.GoLang (TyId tyInt tyU8 Halt importName wrap)
set_option linter.unusedSimpArgs false

/-- `a, err := f(b)`, where `f` is a function of an imported package. -/
def defErr (a p f b : Nat) : Stmt := .define [a, name! "err"] (.cons (.call (.sel (.ident p) f) (.cons (.ident b) .nil)) .nil)
/-- `if err != nil { return ret, err }` -/
def retErr : Stmt := .ifThen .skip (.bin .ne (.ident (name! "err")) (.ident (name! "nil")))
  (.cons (.ret (.cons (.ident (name! "ret")) (.cons (.ident (name! "err")) .nil))) .nil) .nil
/-- `a := ucdparse.NewScanner(b)` -/
def defScan (a b : Nat) : Stmt := .define [a] (.cons (.call (.sel (.ident (name! "ucdparse")) (name! "NewScanner")) (.cons (.ident b) .nil)) .nil)
/-- The loops and what follows. -/
def tail14 : Stmts := dropS 14 fn_BuildRawPropertyTree.body

theorem build_eq : fn_BuildRawPropertyTree = ⟨none, name! "BuildRawPropertyTree", [(name! "baseDir", .name (name! "string"))],
    [(0, .name (name! "RawPropertyTree")), (0, .name (name! "error"))],
    .cons (.define [name! "gbpPath"] (.cons (.call (.sel (.ident (name! "filepath")) (name! "Join")) (.cons (.ident (name! "baseDir"))
      (.cons (.str (name! "auxiliary")) (.cons (.str (name! "GraphemeBreakProperty.txt")) .nil)))) .nil))
    (.cons (.define [name! "emojiPath"] (.cons (.call (.sel (.ident (name! "filepath")) (name! "Join")) (.cons (.ident (name! "baseDir"))
      (.cons (.str (name! "emoji")) (.cons (.str (name! "emoji-data.txt")) .nil)))) .nil))
    (.cons (.define [name! "dcpPath"] (.cons (.call (.sel (.ident (name! "filepath")) (name! "Join")) (.cons (.ident (name! "baseDir"))
      (.cons (.str (name! "DerivedCoreProperties.txt")) .nil))) .nil))
    (.cons (.define [name! "ret"] (.cons (.comp (.name (name! "RawPropertyTree")) .nil) .nil))
    (.cons (defErr (name! "gbpFile") (name! "os") (name! "Open") (name! "gbpPath"))
    (.cons retErr
    (.cons (defErr (name! "emojiFile") (name! "os") (name! "Open") (name! "emojiPath"))
    (.cons retErr
    (.cons (defErr (name! "dcpFile") (name! "os") (name! "Open") (name! "dcpPath"))
    (.cons retErr
    (.cons (.define [name! "tip"] (.cons (.call (.ident (name! "newTreeInProgress")) .nil) .nil))
    (.cons (defScan (name! "gpbSc") (name! "gbpFile"))
    (.cons (defScan (name! "emojiSc") (name! "emojiFile"))
    (.cons (defScan (name! "dcpSc") (name! "dcpFile")) tail14)))))))))))))⟩ := rfl

section
variable (m : Machine) (L d : Nat) (h : Heap)
theorem R_Build (args : List Val) : R m L (d + 1) (.func (name! "gentable") (name! "BuildRawPropertyTree") args) h =
    callWith (ctx m L d) L fn_BuildRawPropertyTree none args h := by kernel_rfl
theorem callQ_Open (s : GoString) : callQualified (ctx m L d) (name! "os") (name! "Open") [.str s] h = (match m.open_ s with
      | .ok id => (pure [.reader id, .err none] : M (List Val))
      | .error n => pure [.ptr ⟨name! "os", name! "File"⟩ 0, .err (some (.os n))]) h := by kernel_rfl
theorem callQ_Open_ok {s : GoString} {id : Nat} (ho : m.open_ s = .ok id) :
    callQualified (ctx m L d) (name! "os") (name! "Open") [.str s] h = .ok ([.reader id, .err none], h) := by
  rw [callQ_Open, ho]; rfl
theorem callQ_Open_error {s : GoString} {n : Nat} (ho : m.open_ s = .error n) :
    callQualified (ctx m L d) (name! "os") (name! "Open") [.str s] h = .ok ([.ptr ⟨name! "os", name! "File"⟩ 0, .err (some (.os n))], h) := by
  rw [callQ_Open, ho]; rfl
@[mem_exec] theorem callN_newTree : callName (ctx m L d) (name! "newTreeInProgress") [] h =
    R m L d (.func (name! "gentable") (name! "newTreeInProgress") []) h := by kernel_rfl
@[mem_exec] theorem resolve_error' : resolve (ctx m L d) (.name (name! "error")) h = .ok (.error, h) := by kernel_rfl
@[mem_exec] theorem litOf_raw_nil : litOf (ctx m L d) tRaw [] h =
    .ok (.struct tRaw [(name! "Indices", .slice noName tI none), (name! "Properties", .slice noName tB none)], h) := by kernel_rfl
end

/-- The fields of `RawPropertyTree{}`. -/
def rawNil : List (Nat × Val) := [(name! "Indices", .slice noName tI none), (name! "Properties", .slice noName tB none)]

/-- The variables at the loops. -/
def envBuild (m : Machine) (base : GoString) (id1 id2 id3 : Nat) : Env :=
  [(name! "dcpSc", .cell tScan 16), (name! "emojiSc", .cell tScan 14), (name! "gpbSc", .cell tScan 12), (name! "tip", .ptr tTree 10),
    (name! "dcpFile", .reader id3), (name! "emojiFile", .reader id2), (name! "err", .err none), (name! "gbpFile", .reader id1),
    (name! "ret", .cell tRaw 7),
    (name! "dcpPath", .str (m.join [.str base, .str (str "DerivedCoreProperties.txt")])),
    (name! "emojiPath", .str (m.join [.str base, .str (str "emoji"), .str (str "emoji-data.txt")])),
    (name! "gbpPath", .str (m.join [.str base, .str (str "auxiliary"), .str (str "GraphemeBreakProperty.txt")])),
    (name! "baseDir", .str base)]

/-- The memory after `newTreeInProgress`. -/
def heapT : Heap := (heap0 ++ [.struct tRaw rawNil]) ++ [.arr (List.replicate 128 (.u8 tyU8 0)), .arr (List.replicate 64 (.u16 tyU16 0)),
        .struct tTree (treeFields ⟨8, 9, 128, 64, [], []⟩ Gen.newTree)]

/-- The memory at the loops. -/
def heapB (id1 id2 id3 : Nat) : Heap := heapT ++
  [.scan id1 0 none, .struct tScan [(name! "lineScan", .ptr tyScanner 11)], .scan id2 0 none, .struct tScan [(name! "lineScan", .ptr tyScanner 13)],
    .scan id3 0 none, .struct tScan [(name! "lineScan", .ptr tyScanner 15)]]

theorem heap0_len : heap0.length = 7 := rfl

theorem textAux : textLine (name! "auxiliary") = str "auxiliary" := rfl
theorem textGbp : textLine (name! "GraphemeBreakProperty.txt") = str "GraphemeBreakProperty.txt" := rfl
theorem textEm : textLine (name! "emoji") = str "emoji" := rfl
theorem textEmo : textLine (name! "emoji-data.txt") = str "emoji-data.txt" := rfl
theorem textDcp : textLine (name! "DerivedCoreProperties.txt") = str "DerivedCoreProperties.txt" := rfl

theorem prefix_ok (m : Machine) (hW : 32 ≤ m.W) (L d : Nat) (base : GoString) (id1 id2 id3 : Nat)
    (o1 : m.open_ (m.join [.str base, .str (str "auxiliary"), .str (str "GraphemeBreakProperty.txt")]) = .ok id1)
    (o2 : m.open_ (m.join [.str base, .str (str "emoji"), .str (str "emoji-data.txt")]) = .ok id2)
    (o3 : m.open_ (m.join [.str base, .str (str "DerivedCoreProperties.txt")]) = .ok id3) :
    R m L (d + 4) (.func (name! "gentable") (name! "BuildRawPropertyTree") [.str base]) heap0 =
      bindR (execs (ctx m L (d + 3)) L tail14 0 (envBuild m base id1 id2 id3) (heapB id1 id2 id3))
        (returned (ctx m L (d + 3)) [(0, .name (name! "RawPropertyTree")), (0, .name (name! "error"))]) := by
  rw [R_Build, build_eq]
  simp [mem_exec, defErr, retErr, defScan, textAux, textGbp, textEm, textEmo, textDcp, callQ_Open_ok _ _ _ _ o1, callQ_Open_ok _ _ _ _ o2,
    callQ_Open_ok _ _ _ _ o3, newTree_any m hW, NewScanner_eq, scanVal, heap0_len, envBuild, heapB, heapT, rawNil, -List.reduceReplicate]

/-- The first file cannot be opened. -/
theorem prefix_err1 (m : Machine) (L d : Nat) (base : GoString) (n : Nat)
    (o1 : m.open_ (m.join [.str base, .str (str "auxiliary"), .str (str "GraphemeBreakProperty.txt")]) = .error n) :
    R m L (d + 4) (.func (name! "gentable") (name! "BuildRawPropertyTree") [.str base]) heap0 =
      .ok ([.struct tRaw rawNil, .err (some (.os n))], heap0 ++ [.struct tRaw rawNil]) := by
  have hld : load 7 (heap0 ++ [.struct tRaw rawNil]) = .ok (.struct tRaw rawNil, heap0 ++ [.struct tRaw rawNil]) := load_some rfl
  unfold rawNil at *
  rw [R_Build, build_eq]
  simp [mem_exec, defErr, retErr, defScan, textAux, textGbp, textEm, textEmo, textDcp, callQ_Open_error _ _ _ _ o1, heap0_len, hld, loadStruct]

/-- The second file cannot be opened. -/
theorem prefix_err2 (m : Machine) (L d : Nat) (base : GoString) (id1 n : Nat)
    (o1 : m.open_ (m.join [.str base, .str (str "auxiliary"), .str (str "GraphemeBreakProperty.txt")]) = .ok id1)
    (o2 : m.open_ (m.join [.str base, .str (str "emoji"), .str (str "emoji-data.txt")]) = .error n) :
    R m L (d + 4) (.func (name! "gentable") (name! "BuildRawPropertyTree") [.str base]) heap0 =
      .ok ([.struct tRaw rawNil, .err (some (.os n))], heap0 ++ [.struct tRaw rawNil]) := by
  have hld : load 7 (heap0 ++ [.struct tRaw rawNil]) = .ok (.struct tRaw rawNil, heap0 ++ [.struct tRaw rawNil]) := load_some rfl
  unfold rawNil at *
  rw [R_Build, build_eq]
  simp [mem_exec, defErr, retErr, defScan, textAux, textGbp, textEm, textEmo, textDcp, callQ_Open_ok _ _ _ _ o1, callQ_Open_error _ _ _ _ o2, heap0_len, hld, loadStruct]

/-- The third file cannot be opened. -/
theorem prefix_err3 (m : Machine) (L d : Nat) (base : GoString) (id1 id2 n : Nat)
    (o1 : m.open_ (m.join [.str base, .str (str "auxiliary"), .str (str "GraphemeBreakProperty.txt")]) = .ok id1)
    (o2 : m.open_ (m.join [.str base, .str (str "emoji"), .str (str "emoji-data.txt")]) = .ok id2)
    (o3 : m.open_ (m.join [.str base, .str (str "DerivedCoreProperties.txt")]) = .error n) :
    R m L (d + 4) (.func (name! "gentable") (name! "BuildRawPropertyTree") [.str base]) heap0 =
      .ok ([.struct tRaw rawNil, .err (some (.os n))], heap0 ++ [.struct tRaw rawNil]) := by
  have hld : load 7 (heap0 ++ [.struct tRaw rawNil]) = .ok (.struct tRaw rawNil, heap0 ++ [.struct tRaw rawNil]) := load_some rfl
  unfold rawNil at *
  rw [R_Build, build_eq]
  simp [mem_exec, defErr, retErr, defScan, textAux, textGbp, textEm, textEmo, textDcp, callQ_Open_ok _ _ _ _ o1, callQ_Open_ok _ _ _ _ o2,
    callQ_Open_error _ _ _ _ o3, heap0_len, hld, loadStruct]

theorem tail14_eq : tail14 = .cons (.loop .skip .omitted .skip (headS (name! "gpbSc") (name! "reading GraphemeBreakProperty.txt: %w") rest1))
    (.cons (.loop .skip .omitted .skip (headS (name! "emojiSc") (name! "reading emoji-data.txt: %w") rest2))
    (.cons (.loop .skip .omitted .skip (headS (name! "dcpSc") (name! "reading DerivedCoreProperties.txt: %w") rest3))
    (.cons (.assign (.cons (.ident (name! "ret")) .nil) (.cons (.call (.sel (.ident (name! "tip")) (name! "Compact")) .nil) .nil))
    (.cons (.ret (.cons (.ident (name! "ret")) (.cons (.ident (name! "nil")) .nil))) .nil)))) := rfl

/-- The last statements. -/
def tail17 : Stmts := .cons (.assign (.cons (.ident (name! "ret")) .nil) (.cons (.call (.sel (.ident (name! "tip")) (name! "Compact")) .nil) .nil))
    (.cons (.ret (.cons (.ident (name! "ret")) (.cons (.ident (name! "nil")) .nil))) .nil)

theorem IsRaw.set {h : Heap} {v : Val} {i : List UInt16} {p : List UInt8} (hr : Spec.IsRaw h v i p) {a : Nat} {t : TyId} {fs fs' : List (Nat × Val)}
    (ha : h[a]? = some (.struct t fs)) : Spec.IsRaw (h.set a (.struct t fs')) v i p := by
  have key : ∀ (s : Option Sl) (l : List Val), readSlice s h = .ok (l, h) → readSlice s (h.set a (.struct t fs')) = .ok (l, h.set a (.struct t fs')) := by
    intro s l hs
    rcases s with _ | s
    · simp only [readSlice, pure_apply, Except.ok.injEq, Prod.mk.injEq] at hs ⊢
      exact ⟨hs.1, trivial⟩
    · rcases hb : h[s.a]? with _ | o
      · simp only [readSlice, bind_apply, load, hb] at hs
        cases hs
      · cases o with
        | arr l' =>
          rw [readSlice_some hb] at hs
          have hne : a ≠ s.a := by rintro rfl; rw [ha] at hb; cases hb
          rw [readSlice_some (l := l') (by rw [List.getElem?_set_ne hne]; exact hb)]
          cases hs
          rfl
        | _ =>
          rw [show readSlice (some s) h = bindR (load s.a h) _ from rfl, load_some hb] at hs
          cases hs
  obtain ⟨s, s', rfl, h1, h2, h3⟩ := hr
  exact ⟨s, s', rfl, key _ _ h1, key _ _ h2, h3⟩

open Textseg.Gen Textseg.Spec in
theorem tail17_spec {σ : Type} (m : Machine) (hW : 32 ≤ m.W) (L d : Nat) (read : Reader σ) (h : Heap) (a id p ac ar sc : Nat) (x : Loc) (t : Tree) (s : Scanner σ)
    (rf : List (Nat × Val)) (env : Env) (he : EnvF env sc ac ar p) (f : FileAt m read h a id p x t s) (har : h[ar]? = some (.struct tRaw rf)) :
    match t.Compact with
    | .ok raw => ∃ v h', bindR (execs (ctx m L (d + 7)) L tail17 0 env h) (returned (ctx m L (d + 7)) [(0, .name (name! "RawPropertyTree")), (0, .name (name! "error"))]) =
        .ok ([v, .err none], h') ∧ RawIs h' v raw
    | .error _ => ∃ er, bindR (execs (ctx m L (d + 7)) L tail17 0 env h) (returned (ctx m L (d + 7)) [(0, .name (name! "RawPropertyTree")), (0, .name (name! "error"))]) =
        .error (.panic er) := by
  obtain ⟨ops, IB, PB, hv⟩ := f.ops
  have l1 := hv.inv.lengthI
  have l0 := lt_of_some hv.inv.head
  have l2 := lt_of_some hv.inv.ascii1
  have hc := Compact_spec m hW L d p h x t f.tree (by rw [hv.inv.lenP]; omega) (by rw [hv.inv.lenI]; omega) (by rw [hv.inv.lenI]; omega)
    (fun i v n hi hv' hn => okSrc_root hv.inv i v n hi hv' hn)
  rcases hr : t.Compact with er | raw
  · rw [hr] at hc
    obtain ⟨er, hc⟩ := hc
    exact ⟨er, by simp [mem_exec, tail17, he.tip, hc]⟩
  · rw [hr] at hc
    obtain ⟨v, h2, e1, e2, hk⟩ := hc
    have har2 := hk ar _ _ har
    have hq := e2
    obtain ⟨s1, s2, hv', -⟩ := hq
    have hv2 : v = .struct tRaw [(name! "Indices", .slice noName (.u16 tyU16) s1), (name! "Properties", .slice noName (.u8 tyU8) s2)] := hv'
    clear hv'
    subst hv2
    refine ⟨_, h2.set ar (.struct tRaw [(name! "Indices", .slice noName (.u16 tyU16) s1), (name! "Properties", .slice noName (.u8 tyU8) s2)]), ?_, IsRaw.set e2 har2⟩
    have hld2 := load_some har2
    have hld3 := load_some (set_self (o' := .struct tRaw [(name! "Indices", .slice noName (.u16 tyU16) s1), (name! "Properties", .slice noName (.u8 tyU8) s2)]) har2)
    simp [mem_exec, tail17, he.tip, he.ret, he.nil, e1, hld2, hld3, loadStruct]
end Textseg.GoMem
