import Verif.Proofs.MemMain3
import Verif.Spec.MainSource
/-!
# The code of the command charprops/generate.go does what the model says
-/

namespace Textseg.GoMem
open Textseg.GoLang (TyId tyInt tyU8 Halt Effect importName wrap)
open Textseg.Spec (processEnd errorMessage statusAfter)
set_option linter.unusedSimpArgs false

theorem effectsOf_append (g k : Heap) : effectsOf (g ++ k) = effectsOf g ++ effectsOf k := List.filterMap_append

@[simp] theorem effectsOf_nil : effectsOf [] = [] := rfl
@[simp] theorem effectsOf_arr (l : List Val) (k : Heap) : effectsOf (.arr l :: k) = effectsOf k := rfl
@[simp] theorem effectsOf_struct (t : TyId) (fs : List (Nat × Val)) (k : Heap) : effectsOf (.struct t fs :: k) = effectsOf k := rfl
@[simp] theorem effectsOf_effect (e : Effect) (k : Heap) : effectsOf (.effect e :: k) = e :: effectsOf k := rfl

/-- The variables of `main` after the declaration of `buf`. -/
def envMain (g : Heap) : Env := [(name! "buf", .cell tyBuffer g.length), (name! "err", .err none), (name! "tree", .cell tRaw (g.length - 1))]

theorem envMain_x (g : Heap) : EnvX (envMain g) g (g.length - 1) := ⟨rfl, rfl, rfl, rfl, rfl, rfl, rfl⟩

theorem textErr : textLine (name! "Error: %s\n") = str "Error: %s\n" := by decide
theorem textPath : textLine (name! "property_table_raw.go") = str "property_table_raw.go" := by decide

/-- The end of the process after the text of the tables is complete. -/
def writeEnd (m : Machine) (pre : List Effect) (buf : GoString) : Nat × List Effect :=
  match m.format buf with
  | .error t => (statusAfter m (errorMessage m (.text t)) 1, pre ++ [errorMessage m (.text t)])
  | .ok src =>
    match m.create (str "property_table_raw.go") with
    | .error n => (statusAfter m (errorMessage m (.os n)) 1, pre ++ [errorMessage m (.os n)])
    | .ok () =>
      if m.killed (.file (str "property_table_raw.go") []) then (137, pre ++ [.file (str "property_table_raw.go") []])
      else (statusAfter m (.file (str "property_table_raw.go") (src.take (m.write src))) 0, pre ++ [.file (str "property_table_raw.go") (src.take (m.write src))])

theorem survive_true (m : Machine) (e : Effect) (h : Heap) (hk : m.killed e = true) : survive m e h = .error (.exit 137 (effectsOf h)) := by
  unfold survive; rw [if_pos hk]; rfl

theorem survive_false (m : Machine) (e : Effect) (h : Heap) (hk : m.killed e = false) : survive m e h = .ok ((), h) := by
  unfold survive; rw [if_neg (by rw [hk]; decide)]; rfl

section
variable (m : Machine) (L d : Nat) (h : Heap)

theorem dieS_some (env : Env) (n : Nat) (e : GoErr) (h1 : env.get (name! "err") = some (.err (some e))) (h2 : env.get (name! "nil") = none)
    (h3 : env.get (name! "fmt") = none) (h4 : env.get (name! "os") = none) :
    exec (ctxM m L (d + 1)) L dieS n env h = .error (.exit (statusAfter m (errorMessage m e) 1) (effectsOf h ++ [errorMessage m e])) := by
  have he : ∀ h, callQualified (ctxM m L (d + 1)) (name! "os") (name! "Exit") [.const 1] h = .error (.exit 1 (effectsOf h)) :=
    fun h => callQM_Exit m L (d + 1) h 1
  have hs := survive_false m (errorMessage m e)
  have ht := survive_true m (errorMessage m e)
  rw [errorMessage] at hs ht ⊢
  rcases hk : m.killed (.message (m.sprintf [.str (str "Error: %s\n"), .err (some e)])) with _ | _
  · simp [mem_exec, dieS, h1, h2, h3, h4, he, effectsOf_append, textErr, hs _ hk, statusAfter, hk]
  · simp [mem_exec, dieS, h1, h2, h3, h4, he, effectsOf_append, textErr, ht _ hk, statusAfter, hk]

theorem dieS_none (env : Env) (n : Nat) (h1 : env.get (name! "err") = some (.err none)) (h2 : env.get (name! "nil") = none) :
    exec (ctxM m L (d + 1)) L dieS n env h = .ok (.next env, h) := by
  simp [mem_exec, dieS, h1, h2]

theorem readBytes_new (bs : List UInt8) (k : Heap) : readBytes (some ⟨h.length, 0, bs.length, bs.length⟩) (h ++ .arr (bs.map (.u8 tyU8)) :: k) =
    .ok (bs, h ++ .arr (bs.map (.u8 tyU8)) :: k) := by
  have h1 : (h ++ Obj.arr (bs.map (.u8 tyU8)) :: k)[h.length]? = some (.arr (bs.map (.u8 tyU8))) := by simp
  rw [readBytes, bind_apply, readSlice_some (s := ⟨h.length, 0, bs.length, bs.length⟩) h1, bindR_ok]
  have h2 : ((bs.map (Val.u8 tyU8)).drop 0).take bs.length = bs.map (.u8 tyU8) := by
    rw [List.drop_zero, List.take_of_length_le (by simp)]
  simp only [h2, bytesOf_map]
  rfl

/-- The last statements. -/
theorem tailX_eq (g : Heap) (buf : GoString) :
    processEnd (bindR (execs (ctxM m L (d + 1)) L tailX 0 (envMain g) (withBuf g buf)) (returned (ctxM m L (d + 1)) [])) =
      some (writeEnd m (effectsOf g) buf) := by
  have hld : load g.length (withBuf g buf) = .ok (.struct tyBuffer [(0, .str buf)], withBuf g buf) := by
    simp [load, withBuf]
  have heff : effectsOf (withBuf g buf) = effectsOf g := by
    rw [withBuf, effectsOf_append]; simp
  have hB : bufferMethod [(0, .str buf)] (name! "Bytes") [] (withBuf g buf) =
      .ok ([.slice noName (.u8 tyU8) (some ⟨(withBuf g buf).length, 0, buf.length, buf.length⟩)], withBuf g buf ++ [.arr (buf.map (.u8 tyU8))]) := rfl
  have hF : formatSource m (some ⟨(withBuf g buf).length, 0, buf.length, buf.length⟩) (withBuf g buf ++ [.arr (buf.map (.u8 tyU8))]) =
      match m.format buf with
      | .ok src => .ok ([.slice noName (.u8 tyU8) (some ⟨(withBuf g buf).length + 1, 0, src.length, src.length⟩), .err none],
          withBuf g buf ++ [.arr (buf.map (.u8 tyU8)), .arr (src.map (.u8 tyU8))])
      | .error t => .ok ([.slice noName (.u8 tyU8) none, .err (some (.text t))], withBuf g buf ++ [.arr (buf.map (.u8 tyU8))]) := by
    rw [formatSource, bind_apply, readBytes_new, bindR_ok]
    rcases m.format buf with t | src
    · rfl
    · simp [bind_apply, alloc, pure_apply, bindR_ok]
  have e1 : exec (ctxM m L (d + 1)) L (.define [name! "src", name! "err"] (.cons (.call (.sel (.ident (name! "format")) (name! "Source"))
      (.cons (.call (.sel (.ident (name! "buf")) (name! "Bytes")) .nil) .nil)) .nil)) 0 (envMain g) (withBuf g buf) =
      match m.format buf with
      | .ok src => .ok (.next [(name! "src", .slice noName (.u8 tyU8) (some ⟨(withBuf g buf).length + 1, 0, src.length, src.length⟩)),
          (name! "buf", .cell tyBuffer g.length), (name! "err", .err none), (name! "tree", .cell tRaw (g.length - 1))],
          withBuf g buf ++ [.arr (buf.map (.u8 tyU8)), .arr (src.map (.u8 tyU8))])
      | .error t => .ok (.next [(name! "src", .slice noName (.u8 tyU8) none),
          (name! "buf", .cell tyBuffer g.length), (name! "err", .err (some (.text t))), (name! "tree", .cell tRaw (g.length - 1))],
          withBuf g buf ++ [.arr (buf.map (.u8 tyU8))]) := by
    rcases hf : m.format buf with t | src <;> rw [hf] at hF <;>
      simp [mem_exec, envMain, loadStruct, hld, R_Bytes, hB, callQM_Source, hF]
  rw [tailX, execs_cons, e1, writeEnd]
  rcases m.format buf with t | src
  · simp only [bindR_ok, andThen]
    rw [execs_cons, dieS_some (e := .text t) (h1 := rfl) (h2 := rfl) (h3 := rfl) (h4 := rfl)]
    simp [processEnd, bindR_error, effectsOf_append, heff]
  · simp only [bindR_ok, andThen]
    rw [execs_cons, dieS_none (h1 := rfl) (h2 := rfl)]
    simp only [bindR_ok, andThen]
    have e2 : ∀ env : Env, env = [(name! "src", .slice noName (.u8 tyU8) (some ⟨(withBuf g buf).length + 1, 0, src.length, src.length⟩)),
          (name! "buf", .cell tyBuffer g.length), (name! "err", .err none), (name! "tree", .cell tRaw (g.length - 1))] → ∀ h,
        exec (ctxM m L (d + 1)) L (.define [name! "f", name! "err"] (.cons (.call (.sel (.ident (name! "os")) (name! "Create")) (.cons (.str (name! "property_table_raw.go")) .nil)) .nil))
          0 env h =
        match m.create (str "property_table_raw.go") with
        | .ok () => bindR (survive m (.file (str "property_table_raw.go") []) (h ++ [.effect (.file (str "property_table_raw.go") [])])) fun _ h' =>
          .ok (.next ((name! "f", .ptr tyFile h.length) :: env), h')
        | .error n => .ok (.next ((name! "f", .ptr tyFile 0) :: env.set (name! "err") (.err (some (.os n)))), h) := by
      rintro env rfl h
      have hC := callQM_Create m L (d + 1) h (str "property_table_raw.go")
      rcases hc : m.create (str "property_table_raw.go") with n | u <;> rw [hc] at hC <;>
        simp [mem_exec, textPath, hC, bind_apply, alloc, pure_apply]
      rcases hk : m.killed (.file (str "property_table_raw.go") []) with _ | _
      · rw [survive_false _ _ _ hk]; simp [mem_exec]
      · rw [survive_true _ _ _ hk]; simp [mem_exec]
    rw [execs_cons, e2 _ rfl]
    rcases m.create (str "property_table_raw.go") with n | u
    · simp only [bindR_ok, andThen]
      rw [execs_cons, dieS_some (e := .os n) (h1 := rfl) (h2 := rfl) (h3 := rfl) (h4 := rfl)]
      simp [processEnd, bindR_error, effectsOf_append, heff]
    · generalize hK : withBuf g buf ++ [Obj.arr (buf.map (.u8 tyU8))] = K
      have hKl : (withBuf g buf).length + 1 = K.length := by rw [← hK]; simp
      have hKe : effectsOf K = effectsOf g := by rw [← hK, effectsOf_append, heff]; simp
      have hH : withBuf g buf ++ [Obj.arr (buf.map (.u8 tyU8)), .arr (src.map (.u8 tyU8))] = K ++ [.arr (src.map (.u8 tyU8))] := by rw [← hK]; simp
      rw [hH, hKl]
      dsimp only
      rcases hk : m.killed (.file (str "property_table_raw.go") []) with _ | _
      rotate_left
      · rw [survive_true _ _ _ hk]
        simp [processEnd, bindR_error, effectsOf_append, hKe]
      rw [survive_false _ _ _ hk]
      simp only [bindR_ok, andThen]
      rw [execs_cons, dieS_none (h1 := rfl) (h2 := rfl)]
      simp only [bindR_ok, andThen]
      have hW : fileMethod m (K ++ [Obj.arr (src.map (.u8 tyU8))]).length (name! "Write") [.slice noName (.u8 tyU8) (some ⟨K.length, 0, src.length, src.length⟩)]
          (K ++ [Obj.arr (src.map (.u8 tyU8))] ++ [.effect (.file (str "property_table_raw.go") [])]) =
          bindR (survive m (.file (str "property_table_raw.go") (src.take (m.write src)))
            (K ++ [Obj.arr (src.map (.u8 tyU8))] ++ [.effect (.file (str "property_table_raw.go") (src.take (m.write src)))])) fun _ h' =>
            .ok ([.int tyInt (min (m.write src) src.length), .err (if src.length ≤ m.write src then none else some (.os 0))], h') := by
        have hld2 : load (K ++ [Obj.arr (src.map (.u8 tyU8))]).length (K ++ [Obj.arr (src.map (.u8 tyU8))] ++ [.effect (.file (str "property_table_raw.go") [])]) =
          .ok (.effect (.file (str "property_table_raw.go") []), K ++ [Obj.arr (src.map (.u8 tyU8))] ++ [.effect (.file (str "property_table_raw.go") [])]) := by
          simp [load]
        have hrb := readBytes_new K src [.effect (.file (str "property_table_raw.go") [])]
        rw [fileMethod, bind_apply, hld2, bindR_ok]
        simp only [if_true, List.append_assoc, List.singleton_append] at hrb ⊢
        rw [bind_apply, hrb, bindR_ok, bind_apply]
        simp [store, bindR_ok, pure_apply]
        rfl
      have hKe2 : effectsOf (K ++ [Obj.arr (src.map (.u8 tyU8))]) = effectsOf g := by rw [effectsOf_append, hKe]; simp
      generalize K ++ [Obj.arr (src.map (.u8 tyU8))] = K2 at hW hKe2
      rcases hk2 : m.killed (.file (str "property_table_raw.go") (src.take (m.write src))) with _ | _
      · rw [survive_false _ _ _ hk2] at hW
        simp [mem_exec, R_Write, hW, processEnd, effectsOf_append, hKe2, statusAfter, hk2]
      · rw [survive_true _ _ _ hk2] at hW
        simp [mem_exec, R_Write, hW, processEnd, effectsOf_append, hKe2, statusAfter, hk2]
end

theorem textUcd : textLine (name! "ucd") = str "ucd" := by decide

theorem returned_nil (c : Ctx) (x : Except Halt (Out × Heap)) : (bindR x fun o h => returned c [] o h) = bindR x (returned c []) := rfl

section
variable (m : Machine) (L d : Nat) (h0 h : Heap)

theorem main_panic {p : Halt} (hb : R m L (d + 1) (.func (name! "gentable") (name! "BuildRawPropertyTree") [.str (str "ucd")]) h0 = .error p) :
    R m L (d + 2) (.func (name! "main") (name! "main") []) h0 = .error p := by
  rw [R_main, main_eq]
  simp [mem_exec, textUcd, hb]

theorem main_error (fs : List (Nat × Val)) (e : GoErr)
    (hb : R m L (d + 1) (.func (name! "gentable") (name! "BuildRawPropertyTree") [.str (str "ucd")]) h0 = .ok ([.struct tRaw fs, .err (some e)], h)) :
    processEnd (R m L (d + 2) (.func (name! "main") (name! "main") []) h0) = 
      some (statusAfter m (errorMessage m e) 1, effectsOf h ++ [errorMessage m e]) := by
  have hd := fun h => dieS_some m L d h [(name! "err", .err (some e)), (name! "tree", .cell tRaw (h.length - 1))] 0 e rfl rfl rfl rfl
  have hd := hd (h ++ [.struct tRaw fs])
  rw [List.length_append, List.length_singleton, Nat.add_sub_cancel] at hd
  rw [R_main, main_eq]
  simp [mem_exec, textUcd, hb, hd, processEnd, effectsOf_append]

open Textseg.Gen in
theorem main_ok (hW : 32 ≤ m.W) (v : Val) (raw : RawPropertyTree)
    (hb : R m L (d + 1) (.func (name! "gentable") (name! "BuildRawPropertyTree") [.str (str "ucd")]) h0 = .ok ([v, .err none], h))
    (hr : Spec.IsRaw h v raw.Indices raw.Properties) (hI : raw.Indices.length < 20000000) (hP : raw.Properties.length < 20000000) (hL : 20000000 ≤ L) :
    match printSource raw with
    | .error p => R m L (d + 2) (.func (name! "main") (name! "main") []) h0 = .error (.panic p)
    | .ok buf => processEnd (R m L (d + 2) (.func (name! "main") (name! "main") []) h0) = some (writeEnd m (effectsOf h) buf) := by
  obtain ⟨s, s', rfl, r1, r2, l1, l2⟩ := hr
  generalize hfs : [(name! "Indices", Val.slice noName (.u16 tyU16) s), (name! "Properties", .slice noName (.u8 tyU8) s')] = fs
  generalize hgg : h ++ [Obj.struct tRaw fs] = g
  have hgl : g.length - 1 = h.length := by rw [← hgg]; simp
  have hat : g[g.length - 1]? = some (.struct tRaw fs) := by rw [hgl, ← hgg]; simp
  have heff : effectsOf g = effectsOf h := by rw [← hgg, effectsOf_append]; simp
  have hx := envMain_x g
  have grow : ∀ (t : Option Sl) (l : List Val), readSlice t h = .ok (l, h) → readSlice t g = .ok (l, g) := by
    intro t l ht
    rcases t with _ | t
    · simp only [readSlice, pure_apply, Except.ok.injEq, Prod.mk.injEq] at ht ⊢
      exact ⟨ht.1, trivial⟩
    · rcases hb : h[t.a]? with _ | o
      · simp only [readSlice, bind_apply, load, hb] at ht
        cases ht
      · cases o with
        | arr l' =>
          rw [readSlice_some hb] at ht
          rw [readSlice_some (l := l') (by rw [← hgg, List.getElem?_append_left (lt_of_some hb)]; exact hb)]
          cases ht
          rfl
        | _ =>
          rw [show readSlice (some t) h = bindR (load t.a h) _ from rfl, load_some hb] at ht
          cases ht
  have sI := readSlice_elems (Val.u16 tyU16) (grow _ _ r1) l1
  have sP := readSlice_elems (Val.u8 tyU8) (grow _ _ r2) l2
  have iI : ItemSpec (ctxM m L (d + 1)) L g (g.length - 1) (Val.u16 tyU16) printIndex innerI :=
    ⟨fun _ _ _ => rfl, fun env bs n x he => by rw [innerI_eq m L d he bs n x]; cases printIndex x <;> rfl⟩
  have iP : ItemSpec (ctxM m L (d + 1)) L g (g.length - 1) (Val.u8 tyU8) printProp innerP :=
    ⟨fun _ _ _ => rfl, fun env bs n x he => by rw [innerP_eq m L d he bs n x]; cases printProp x <;> rfl⟩
  have LI := fun bs => loopX_eq m hW L d hx iI hat (f := name! "Indices") (s := s) (by rw [← hfs]; intro h; rfl) raw.Indices sI hI (by omega) bs 0
  have LP := fun bs => loopX_eq m hW L d hx iP hat (f := name! "Properties") (s := s') (by rw [← hfs]; intro h; rfl) raw.Properties sP hP (by omega) bs 0
  have pr := fun bs s => println_eq m L (d + 1) hx bs 0 s
  have e0 : R m L (d + 2) (.func (name! "main") (name! "main") []) h0 =
      bindR (execs (ctxM m L (d + 1)) L (dropS 3 fn_main.body) 0 (envMain g) (withBuf g [])) (returned (ctxM m L (d + 1)) []) := by
    have hd := dieS_none m L d g [(name! "err", .err none), (name! "tree", .cell tRaw h.length)] 0 rfl rfl
    have hg1 : g.length = h.length + 1 := by rw [← hgg]; simp
    rw [R_main, main_eq]
    have hb : R m L (d + 1) (.func (name! "gentable") (name! "BuildRawPropertyTree") [.str (str "ucd")]) h0 = .ok ([.struct tRaw fs, .err none], h) := by
      rw [← hfs]; exact hb
    simp [mem_exec, textUcd, hb, hgg, hd, envMain, hg1, dropS, withBuf]
  have e1 : dropS 3 fn_main.body = .cons (printS (name! "Fprintln") (name! "// Generated by generate.go. DO NOT EDIT!"))
    (.cons (printS (name! "Fprintln") (name! ""))
    (.cons (printS (name! "Fprintln") (name! "package charprops"))
    (.cons (printS (name! "Fprintln") (name! ""))
    (.cons (printS (name! "Fprintln") (name! "var lookupIndices = [...]uint8{"))
    (.cons (loopX (name! "Indices") innerI) midX))))) := rfl
  have t1 : textLine (name! "// Generated by generate.go. DO NOT EDIT!") ++ [0x0A] = str "// Generated by generate.go. DO NOT EDIT!\n" := by decide
  have t2 : textLine (name! "") ++ [0x0A] = str "\n" := by decide
  have t3 : textLine (name! "package charprops") ++ [0x0A] = str "package charprops\n" := by decide
  have t4 : textLine (name! "var lookupIndices = [...]uint8{") ++ [0x0A] = str "var lookupIndices = [...]uint8{\n" := by decide
  have t5 : textLine (name! "}") ++ [0x0A] = str "}\n" := by decide
  have t6 : textLine (name! "var lookupProps = [...]CharProperties{") ++ [0x0A] = str "var lookupProps = [...]CharProperties{\n" := by decide
  rw [e0, e1]
  simp only [execs_cons, pr, bindR_ok, andThen, t1, t2, t3, t4, List.nil_append, LI]
  rw [printSource]
  simp only [bind, Except.bind]
  rcases printRows printIndex raw.Indices (raw.Indices.length + 1) 0 with p | ti
  · rfl
  · simp only [printedTo, bindR_ok, andThen, midX, execs_cons, pr, t5, t6, LP]
    rcases printRows printProp raw.Properties (raw.Properties.length + 1) 0 with p | tp
    · rfl
    · simp only [printedTo, bindR_ok, andThen, execs_cons, pr, t5]
      rw [tailX_eq, heff]
end

end Textseg.GoMem
