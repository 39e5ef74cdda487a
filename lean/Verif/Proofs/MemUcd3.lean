import Verif.Proofs.MemUcd2
/-!
# The code of `ucdparse.NewScanner`, `Entry.FirstField` and `Entry.AllFields` does what the model says
-/

namespace Textseg.GoMem
open Textseg.GoLang (TyId tyInt tyU8 Halt importName wrap)
set_option linter.unusedSimpArgs false

/-- `ucdparse.NewScanner(r)` -/
theorem NewScanner_eq (m : Machine) (L d : Nat) (h : Heap) (id : Nat) :
    R m L (d + 1) (.func (name! "ucdparse") (name! "NewScanner") [.reader id]) h = .ok ([scanVal h.length], h ++ [.scan id 0 none]) := by
  kernel_rfl

section
variable (m : Machine) (L d : Nat) (h : Heap)
theorem R_FirstField (fs : List (Nat × Val)) (args : List Val) : R m L (d + 1) (.method (.struct tEntry fs) (name! "FirstField") args) h =
    callWith (ctxU m L d) L fn_FirstField (some (.struct tEntry fs)) args h := by kernel_rfl
theorem R_AllFields (fs : List (Nat × Val)) (args : List Val) : R m L (d + 1) (.method (.struct tEntry fs) (name! "AllFields") args) h =
    callWith (ctxU m L d) L fn_AllFields (some (.struct tEntry fs)) args h := by kernel_rfl
@[mem_exec] theorem R_FirstString (o : Option Sl) (args : List Val) : R m L (d + 1) (.method (.slice tFields tB o) (name! "FirstString") args) h =
    callWith (ctxU m L d) L fn_FirstString (some (.slice tFields tB o)) args h := by kernel_rfl
@[mem_exec] theorem R_Strings (o : Option Sl) (args : List Val) : R m L (d + 1) (.method (.slice tFields tB o) (name! "Strings") args) h =
    callWith (ctxU m L d) L fn_Strings (some (.slice tFields tB o)) args h := by kernel_rfl
end

/-- `e.FirstField()` -/
theorem FirstField_eq (m : Machine) (L d : Nat) (h : Heap) (s e : Int32) (o : Option Sl) (bs : List UInt8) (hb : BytesAt h o bs) (g : GlobU h) :
    ∃ obj, R m L (d + 3) (.method (entryVal s e o) (name! "FirstField") []) h = .ok ([.str (firstString bs)], h ++ [obj]) := by
  refine ⟨.struct tEntry [(name! "Start", .rune tyRune s), (name! "End", .rune tyRune e), (name! "Fields", .slice tFields tB o)], ?_⟩
  have hb1 := hb.keep (h' := h ++ [.struct tEntry [(name! "Start", .rune tyRune s), (name! "End", .rune tyRune e), (name! "Fields", .slice tFields tB o)]])
    fun s hs => by subst hs; obtain ⟨l, hl, _⟩ := hb; exact push_old (lt_of_some hl)
  have g1 : GlobU (h ++ [.struct tEntry [(name! "Start", .rune tyRune s), (name! "End", .rune tyRune e), (name! "Fields", .slice tFields tB o)]]) :=
    g.keep fun b _ _ => push_old (by have := g.len; omega)
  rcases e1 : bytesCut bs fieldSeparator with ⟨b, x, y⟩
  obtain ⟨o1, o1', c1, b1, -, -, -⟩ := cutOf_spec hb1 g1.field' e1 (by decide)
  obtain ⟨o2, c2, b2, -⟩ := trimOf_spec b1
  have r2 := b2.readSlice
  have hld := load_some (push_new (h := h) (o := .struct tEntry [(name! "Start", .rune tyRune s), (name! "End", .rune tyRune e), (name! "Fields", .slice tFields tB o)]))
  have hf : firstString bs = TrimSpace b := by simp only [firstString, e1]
  rw [entryVal, R_FirstField, hf]
  simp [mem_exec, fn_FirstField, fn_FirstString, loadStruct, hld, c1, c2, r2, bytesOf_map]

section
variable (c : Ctx) (env : Env) (L base : Nat) (h : Heap)
@[mem_exec ↓] theorem exec_retLit (ps rs : List (Nat × Ty)) (body : Stmts) : exec c L (.ret (.cons (.funcLit ps rs body) .nil)) base env h =
    bindR (capture env h) fun env h => .ok (.ret [.func h.length], h ++ [.closure c.pkg c.imports ps body env]) := rfl
@[mem_exec] theorem capture_nil : capture [] h = .ok ([], h) := rfl
@[mem_exec] theorem capture_slice (x : Nat) (t : TyId) (e : GTy) (o : Option Sl) : capture ((x, .slice t e o) :: env) h =
    bindR (capture env h) fun env h => .ok ((x, .boxed h.length) :: env, h ++ [.box (.slice t e o)]) := rfl
@[mem_exec ↓] theorem evalMulti_callLocal (x : Nat) (args : Exprs) (a : Nat) (he : Env.get x env = some (.collect a)) : evalMulti c env (.call (.ident x) args) h =
    bindR (evalArgs c env args h) fun vs h => c.callValue (.collect a) vs h := by
  have hs : (Env.get x env).isSome = true := by rw [he]; rfl
  have e : evalMulti c env (.call (.ident x) args) h = (match Env.get x env with
      | some v => (do
          let vs ← evalArgs c env args
          c.callValue v vs : M (List Val))
      | none => stuck) h := by
    rcases args with _ | ⟨e, es⟩
    · simp only [evalMulti, if_pos hs]; rfl
    · cases e <;> (simp only [evalMulti, if_pos hs]; rfl)
  rw [e, he]; rfl
@[mem_exec ↓] theorem evalMulti_convert (t : Ty) (e : Expr) : evalMulti c env (.call (.ty t) (.cons e .nil)) h =
    bindR (evalArgs c env (.cons e .nil) h) fun vs h => bindR (single vs h) fun v h => bindR (resolve c t h) fun t h => bindR (convert c.m.W t v h) fun v h => .ok ([v], h) := rfl
@[mem_exec] theorem convert_slice (W : Nat) (t t' : TyId) (o : Option Sl) : convert W (.slice t tB) (.slice t' tB o) h = .ok (.slice t tB o, h) := by
  simp only [convert, if_true]; rfl
end
section
variable (m : Machine) (L d : Nat) (h : Heap)
@[mem_exec] theorem ctxU_pkg : (ctxU m L d).pkg = name! "ucdparse" := rfl
@[mem_exec] theorem ctxU_imports : (ctxU m L d).imports = fileUcdScan.imports := rfl
@[mem_exec] theorem resolveU_seq : resolve (ctxU m L d) (.inst (name! "iter") (name! "Seq") (.name (name! "string"))) h = .ok (.func, h) := by kernel_rfl
@[mem_exec] theorem assignTo_func (W a : Nat) : assignTo W .func (.func a) h = .ok (.func a, h) := by
  simp only [assignTo]; rw [if_pos (by rfl)]; rfl
end

/-- The function literal in `Strings`. -/
def litOfRet : Stmt → List (Nat × Ty) × Stmts
  | .ret (.cons (.funcLit ps _ b) .nil) => (ps, b)
  | _ => ([], .nil)
/-- The function that `Strings` returns, where the variables `remain` and `f` are at the addresses `ar` and `af`. -/
def stringsClosure (ar af : Nat) : Obj :=
  .closure (name! "ucdparse") fileUcdScan.imports (litOfRet (stmtAt 1 fn_Strings.body)).1 (litOfRet (stmtAt 1 fn_Strings.body)).2
    [(name! "remain", .boxed ar), (name! "f", .boxed af)]

/-- `e.AllFields()` -/
theorem AllFields_eq (m : Machine) (L d : Nat) (h : Heap) (s e : Int32) (o : Option Sl) :
    R m L (d + 3) (.method (entryVal s e o) (name! "AllFields") []) h = .ok ([.func (h.length + 3)],
      h ++ [.struct tEntry [(name! "Start", .rune tyRune s), (name! "End", .rune tyRune e), (name! "Fields", .slice tFields tB o)]] ++
        [.box (.slice tFields tB o)] ++ [.box (.slice noName tB o)] ++ [stringsClosure (h.length + 2) (h.length + 1)]) := by
  have hld := load_some (push_new (h := h) (o := .struct tEntry [(name! "Start", .rune tyRune s), (name! "End", .rune tyRune e), (name! "Fields", .slice tFields tB o)]))
  rw [entryVal, R_AllFields]
  simp [mem_exec, fn_AllFields, fn_Strings, loadStruct, hld, stringsClosure, litOfRet, stmtAt]

/-- The body of the loop in the function that `Strings` returns. -/
def stringsBody : Stmts := loopBody (stmtAt 0 (litOfRet (stmtAt 1 fn_Strings.body)).2)

/-- The variables in the function that `Strings` returns. -/
def envS (b ar af : Nat) : Env := [(name! "yield", .collect b), (name! "remain", .boxed ar), (name! "f", .boxed af)]

section
variable (m : Machine) (L d : Nat) (h : Heap)
@[mem_exec] theorem ctxU_callValue (v : Val) (args : List Val) : (ctxU m L d).callValue v args h = R m L d (.value v args) h := rfl
@[mem_exec] theorem resolveU_fn : resolve (ctxU m L d) .fn h = .ok (.func, h) := by kernel_rfl
theorem R_collect {b : Nat} {l : List Val} (hb : h[b]? = some (.arr l)) (s : GoString) :
    R m L (d + 1) (.value (.collect b) [.str s]) h = .ok ([.bool true], h.set b (.arr (l ++ [.str s]))) := by
  have e : R m L (d + 1) (.value (.collect b) [.str s]) h = bindR (load b h) fun o h =>
      (match o with
      | .arr l => do
        store b (.arr (l ++ [.str s]))
        pure [.bool true]
      | _ => stuck : M (List Val)) h := by kernel_rfl
  rw [e, load_some hb]; rfl
end

theorem strings_loop (m : Machine) (L d b ar af : Nat) : ∀ (n n' : Nat) (h : Heap) (o : Option Sl) (bs : List UInt8) (acc : List GoString) (r : List UInt8 × List GoString),
    n ≤ n' → GlobU h → h[b]? = some (.arr (acc.map .str)) → h[ar]? = some (.box (.slice noName tB o)) → BytesAt h o bs → 7 ≤ b → 7 ≤ ar →
    (∀ s, o = some s → s.a ≠ b) → fieldsIter (fun acc v => (true, acc ++ [v])) n bs acc = .ok r →
    ∃ h', forever (ctxU m L (d + 2)) L stringsBody n' (envS b ar af) h = .ok (.ret [], h') ∧ h'[b]? = some (.arr (r.2.map .str)) ∧
      h'.length = h.length ∧ (∀ a, a ≠ b → a ≠ ar → h'[a]? = h[a]?) := by
  intro n
  induction n with
  | zero => intro n' h o bs acc r _ _ _ _ _ _ _ _ hf; cases hf
  | succ n ih =>
    intro n' h o bs acc r hn g hb har ho h7 h7' hne hf
    obtain ⟨n', rfl⟩ : ∃ k, n' = k + 1 := ⟨n' - 1, by omega⟩
    have hrb : ar ≠ b := by rintro rfl; rw [hb] at har; cases har
    rw [forever_succ]
    have el : (envS b ar af).length = 3 := rfl
    rw [el]
    rcases e1 : bytesCut bs fieldSeparator with ⟨bf, aft, fs⟩
    obtain ⟨o1, o1', c1, b1, b1', p1, p1'⟩ := cutOf_spec ho g.field' e1 (by decide)
    obtain ⟨o2, c2, b2, -⟩ := trimOf_spec b1
    have r2 := b2.readSlice
    have hld := load_some har
    have hcol := R_collect m L (d + 1) h hb (TrimSpace bf)
    rw [fieldsIter, e1] at hf
    simp only [] at hf
    have hb1 : (h.set b (.arr (acc.map .str ++ [.str (TrimSpace bf)])))[b]? = some (.arr ((acc ++ [TrimSpace bf]).map .str)) := by
      rw [set_self hb]; simp
    have har1 : (h.set b (.arr (acc.map .str ++ [.str (TrimSpace bf)])))[ar]? = some (.box (.slice noName tB o)) := by
      rw [set_other (Ne.symm hrb), har]
    have hld1 := load_some har1
    cases fs with
    | false =>
      simp only [Bool.false_eq_true, if_false] at hf
      cases hf
      refine ⟨h.set b (.arr (acc.map .str ++ [.str (TrimSpace bf)])), ?_, hb1, List.length_set, fun a h1 h2 => set_other (Ne.symm h1)⟩
      simp [mem_exec, stringsBody, fn_Strings, stmtAt, litOfRet, loopBody, envS, loadBox, hld, c1, c2, r2, bytesOf_map, hcol, foreverNext]
    | true =>
      simp only [if_true] at hf
      have hb2 : ((h.set b (.arr (acc.map .str ++ [.str (TrimSpace bf)]))).set ar (.box (.slice noName tB o1')))[b]? = some (.arr ((acc ++ [TrimSpace bf]).map .str)) := by
        rw [set_other hrb, hb1]
      have hsame : ∀ a, a ≠ b → a ≠ ar → ((h.set b (.arr (acc.map .str ++ [.str (TrimSpace bf)]))).set ar (.box (.slice noName tB o1')))[a]? = h[a]? :=
        fun a h1 h2 => by rw [set_other (Ne.symm h2), set_other (Ne.symm h1)]
      have hob : ∀ s, o1' = some s → s.a ≠ b := fun s hs => by
        obtain ⟨s', hs', e⟩ := p1' s hs
        rw [e]; exact hne s' hs'
      have hor : ∀ s, o1' = some s → s.a ≠ ar := fun s hs => by
        subst hs
        obtain ⟨l, hl, _⟩ := b1'
        intro e
        rw [e, har] at hl; cases hl
      obtain ⟨h', f1, f2, f3, f4⟩ := ih n' _ o1' aft (acc ++ [TrimSpace bf]) r (by omega)
        (g.keep fun a h1 h2 => hsame a (by omega) (by omega)) hb2 (set_self har1)
        (b1'.keep fun s hs => hsame s.a (hob s hs) (hor s hs)) h7 h7' hob hf
      refine ⟨h', ?_, f2, by rw [f3]; simp, fun a h1 h2 => by rw [f4 a h1 h2, hsame a h1 h2]⟩
      rw [← f1]
      simp [mem_exec, stringsBody, fn_Strings, stmtAt, litOfRet, loopBody, envS, loadBox, hld, hld1, c1, c2, r2, bytesOf_map, hcol, foreverNext, replace]

theorem fieldsIter_ne_nil : ∀ (n : Nat) (bs : List UInt8) (acc : List GoString) (r : List UInt8 × List GoString),
    fieldsIter (fun acc v => (true, acc ++ [v])) n bs acc = .ok r → r.2 ≠ [] := by
  intro n
  induction n with
  | zero => intro bs acc r h; cases h
  | succ n ih =>
    intro bs acc r h
    rw [fieldsIter] at h
    rcases e : bytesCut bs fieldSeparator with ⟨b, a, f⟩
    rw [e] at h
    simp only [] at h
    split at h
    · exact ih _ _ _ h
    · cases h; simp

/-- `slices.Collect(e.AllFields())`, in the file of the context `c`. -/
theorem Collect_AllFields (m : Machine) (L d : Nat) (c : Ctx) (hc : ∀ v args h, c.callValue v args h = R m L (d + 3) (.value v args) h) (h : Heap) (s e : Int32)
    (o : Option Sl) (bs : List UInt8) (hb : BytesAt h o bs) (g : GlobU h) (fs : List GoString) (hf : allFields bs = .ok fs) (hL : bs.length + 1 ≤ L) :
    ∃ h1 h', R m L (d + 3) (.method (entryVal s e o) (name! "AllFields") []) h = .ok ([.func (h.length + 3)], h1) ∧
      collectOf c (.func (h.length + 3)) h1 = .ok ([.slice noName .str (some ⟨h.length + 4, 0, fs.length, fs.length⟩)], h') ∧
      h'[h.length + 4]? = some (.arr (fs.map .str)) ∧ h.length ≤ h'.length ∧ (∀ a, a < h.length → h'[a]? = h[a]?) := by
  have hall := AllFields_eq m L d h s e o
  generalize hh : h ++ [Obj.struct tEntry [(name! "Start", .rune tyRune s), (name! "End", .rune tyRune e), (name! "Fields", .slice tFields tB o)]] ++
        [.box (.slice tFields tB o)] ++ [.box (.slice noName tB o)] ++ [stringsClosure (h.length + 2) (h.length + 1)] = h1 at hall
  have hlen : h1.length = h.length + 4 := by rw [← hh]; simp
  have hold : ∀ a, a < h.length → h1[a]? = h[a]? := by
    intro a ha
    rw [← hh, push_old (by simp; omega), push_old (by simp; omega), push_old (by simp; omega), push_old (by omega)]
  have har : h1[h.length + 2]? = some (.box (.slice noName tB o)) := by rw [← hh]; simp
  have hcl : h1[h.length + 3]? = some (stringsClosure (h.length + 2) (h.length + 1)) := by rw [← hh]; simp
  have hlt : ∀ s, o = some s → s.a < h.length := fun s hs => by subst hs; obtain ⟨l, hl, _⟩ := hb; exact lt_of_some hl
  have h7 := g.len
  unfold allFields at hf
  rcases hi : fieldsIter (fun acc v => (true, acc ++ [v])) (bs.length + 1) bs [] with p | r
  · rw [hi] at hf; cases hf
  · rw [hi] at hf
    have hr : r.2 = fs := by cases hf; rfl
    have hnn := fieldsIter_ne_nil _ _ _ _ hi
    obtain ⟨h', f1, f2, f3, f4⟩ := strings_loop m L d h1.length (h.length + 2) (h.length + 1) (bs.length + 1) L (h1 ++ [.arr []]) o bs [] r hL
      (g.keep fun a _ _ => by rw [push_old (by omega), hold a (by omega)]) push_new (by rw [push_old (by omega)]; exact har)
      (hb.keep fun s hs => by have := hlt s hs; rw [push_old (by omega), hold _ this]) (by omega) (by omega)
      (fun s hs => by have := hlt s hs; omega) hi
    have hv : R m L (d + 3) (.value (.func (h.length + 3)) [.collect h1.length]) (h1 ++ [.arr []]) = .ok ([], h') := by
      have e1 : R m L (d + 3) (.value (.func (h.length + 3)) [.collect h1.length]) (h1 ++ [.arr []]) =
          bindR (load (h.length + 3) (h1 ++ [.arr []])) fun ob h =>
            (match ob with
            | .closure pkg imports ps body env => (do
              let c := mkCtx gentable m (R m L (d + 2)) pkg imports
              let env ← bindParams c env ps [.collect h1.length]
              match ← execs c L body 0 env with
              | .ret vs => pure vs
              | .next _ => pure []
              | _ => stuck : M (List Val))
            | _ => stuck) h := by kernel_rfl
      rw [e1, load_some (by rw [push_old (by omega)]; exact hcl), bindR_ok]
      have e2 : ∀ hp, bindParams (ctxU m L (d + 2)) [(name! "remain", .boxed (h.length + 2)), (name! "f", .boxed (h.length + 1))]
          (litOfRet (stmtAt 1 fn_Strings.body)).1 [.collect h1.length] hp = .ok (envS h1.length (h.length + 2) (h.length + 1), hp) := by
        intro hp; kernel_rfl
      have e3 : ∀ hp, execs (ctxU m L (d + 2)) L (litOfRet (stmtAt 1 fn_Strings.body)).2 0 (envS h1.length (h.length + 2) (h.length + 1)) hp =
          bindR (bindR (forever (ctxU m L (d + 2)) L stringsBody L (envS h1.length (h.length + 2) (h.length + 1)) hp) fun o h => .ok (leave 3 o, h))
            fun o h => andThen (ctxU m L (d + 2)) L 0 .nil o h := by
        intro hp
        have : (litOfRet (stmtAt 1 fn_Strings.body)).2 = .cons (.loop .skip .omitted .skip stringsBody) .nil := rfl
        rw [this, execs_cons, exec_forever]; rfl
      simp only [stringsClosure, bind_apply]
      have e2' := e2 (h1 ++ [.arr []])
      have e3' := e3 (h1 ++ [.arr []])
      unfold ctxU at e2' e3'
      rw [e2', bindR_ok, e3']
      unfold ctxU at f1
      rw [f1]
      rfl
    refine ⟨h1, h', hall, ?_, by rw [← hlen, f2, hr], ?_, ?_⟩
    · simp only [collectOf, bind_apply, alloc_apply, bindR_ok, hc, hv, load_some f2, hr, pure_apply]
      have : (fs.map Val.str).isEmpty = false := by
        rw [hr] at hnn
        cases fs with
        | nil => exact absurd rfl hnn
        | cons _ _ => rfl
      simp only [this, Bool.false_eq_true, if_false, List.length_map, hlen]
    · rw [f3]; simp; omega
    · intro a ha
      rw [f4 a (by omega) (by omega), push_old (by omega), hold a ha]

end Textseg.GoMem
