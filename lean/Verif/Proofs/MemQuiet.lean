import Verif.GoMem.Eval
/-!
# Only the package main does something that is seen from outside

Code of other packages leaves the memory without effects.
-/

namespace Textseg.GoMem
open Textseg.GoLang (TyId tyInt tyU8 Halt Effect importName wrap)
set_option linter.unusedSimpArgs false
set_option linter.unusedSectionVars false

/-- Neither an effect nor code of the package main. -/
def CalmObj : Obj → Prop
  | .effect _ => False
  | .closure pkg imports _ _ _ => pkg ≠ name! "main" ∧ (imports.map importName).contains (name! "main") = false
  | _ => True

def Calm (h : Heap) : Prop := ∀ o ∈ h, CalmObj o

theorem Calm.effects : ∀ {h : Heap}, Calm h → effectsOf h = []
  | [], _ => rfl
  | o :: h, hc => by
    have h1 := hc o List.mem_cons_self
    have h2 := Calm.effects (h := h) fun o ho => hc o (List.mem_cons_of_mem _ ho)
    cases o <;> first | exact h1.elim | exact h2

/-- A computation that has no effects. -/
class Quiet {α : Type} (x : M α) : Prop where
  calm : ∀ h a h', x h = .ok (a, h') → Calm h → Calm h'

section
variable {α β : Type}
instance (a : α) : Quiet (pure a : M α) := ⟨fun h b h' e hc => by cases e; exact hc⟩
instance (e : Halt) : Quiet (halt e : M α) := ⟨fun _ _ _ e => nomatch e⟩
instance : Quiet (stuck : M α) := ⟨fun _ _ _ e => nomatch e⟩
instance (p : GoPanic) : Quiet (panic_ p : M α) := ⟨fun _ _ _ e => nomatch e⟩
instance (n : Nat) : Quiet (exit_ n : M α) := ⟨fun _ _ _ e => nomatch e⟩
theorem bind_run (x : M α) (f : α → M β) (h : Heap) : (x >>= f) h = (match x h with
    | .ok (a, h') => f a h'
    | .error e => .error e) := rfl
theorem Quiet.bind {x : M α} {f : α → M β} (hx : Quiet x) (hf : ∀ a, Quiet (f a)) : Quiet (x >>= f) :=
  ⟨fun h b h' e hc => by
    have e : (match x h with
      | .ok (a, h') => f a h'
      | .error e => .error e) = .ok (b, h') := e
    rcases hx' : x h with er | ⟨a, h1⟩
    · rw [hx'] at e; cases e
    · rw [hx'] at e
      exact (hf a).calm _ _ _ e (hx.calm _ _ _ hx' hc)⟩
theorem Quiet.ite {p : Prop} [Decidable p] {x y : M α} (hx : p → Quiet x) (hy : ¬p → Quiet y) : Quiet (if p then x else y) := by
  by_cases h : p
  · rw [if_pos h]; exact hx h
  · rw [if_neg h]; exact hy h
theorem Quiet.load_bind {a : Nat} {f : Obj → M β} (hf : ∀ o, CalmObj o → Quiet (f o)) : Quiet (load a >>= f) :=
  ⟨fun h b h' e hc => by
    rcases hx : h[a]? with _ | o
    · have hl : load a h = .error .stuck := by unfold load; rw [hx]
      rw [bind_run, hl] at e; cases e
    · have hl : load a h = .ok (o, h) := by unfold load; rw [hx]
      rw [bind_run, hl] at e
      exact (hf o (hc o (List.mem_of_getElem? hx))).calm _ _ _ e hc⟩
theorem Quiet.store {a : Nat} {o : Obj} (ho : CalmObj o) : Quiet (store a o) :=
  ⟨fun h b h' e hc => by
    cases e
    intro o' ho'
    rcases List.mem_or_eq_of_mem_set ho' with h1 | rfl
    · exact hc _ h1
    · exact ho⟩
theorem Quiet.alloc {o : Obj} (ho : CalmObj o) : Quiet (alloc o) :=
  ⟨fun h b h' e hc => by
    cases e
    intro o' ho'
    rcases List.mem_append.mp ho' with h1 | h1
    · exact hc _ h1
    · rw [List.mem_singleton.mp h1]; exact ho⟩
end

/-- One step. -/
macro "quiet1" : tactic => `(tactic| first
  | infer_instance
  | assumption
  | exact trivial
  | (apply Quiet.load_bind; intro _ _)
  | (refine Quiet.bind ?_ fun _ => ?_)
  | exact Quiet.store trivial
  | exact (False.elim (by assumption : CalmObj (.effect _)))
  | exact Quiet.alloc trivial
  | refine Quiet.ite (fun _ => ?_) (fun _ => ?_)
  | split
  | contradiction
  | dsimp only)
macro "quiet" : tactic => `(tactic| repeat' quiet1)

section
variable (c : Ctx) (W : Nat) (h : Heap)
instance (vs : List Val) : Quiet (single vs) := by unfold single; quiet
instance (t : GTy) (v : Val) : Quiet (assignTo W t v) := by unfold assignTo; quiet
instance (s : Option Sl) : Quiet (readSlice s) := by unfold readSlice; quiet
instance (t : GTy) (v : Val) : Quiet (convert W t v) := by unfold convert; quiet
instance (t : GTy) : Quiet (zeroValue t) := by unfold zeroValue; quiet
instance (v : Val) : Quiet (defineAs W v) := by unfold defineAs; quiet
instance (t op a b) : Quiet (intOp W t op a b) := by unfold intOp; quiet
instance (t op a b) : Quiet (u8Op t op a b) := by unfold u8Op; quiet
instance (t op a b) : Quiet (u16Op t op a b) := by unfold u16Op; quiet
instance (t op a b) : Quiet (runeOp t op a b) := by unfold runeOp; quiet
instance (op a b) : Quiet (constOp op a b) := by unfold constOp; quiet
instance (op a b) : Quiet (sameOp W op a b) := by unfold sameOp; quiet
instance (n v) : Quiet (shiftLeft W n v) := by unfold shiftLeft; quiet
instance (n v) : Quiet (shiftRight n v) := by unfold shiftRight; quiet
instance (op a b) : Quiet (binary W op a b) := by unfold binary; quiet
instance (v) : Quiet (boolValue v) := by unfold boolValue; quiet
instance (op x y) [Quiet x] [Quiet y] : Quiet (operator W op x y) := by unfold operator; quiet
instance (v) : Quiet (indexValue v) := by unfold indexValue; quiet
instance (v) : Quiet (len v) := by unfold len; quiet
instance (s i) : Quiet (position s i) := by unfold position; quiet
instance (s i) : Quiet (loadElem s i) := by unfold loadElem; quiet
instance (s i v) : Quiet (storeElem s i v) := by unfold storeElem; quiet
instance (v a k) : Quiet (loadMap v a k) := by unfold loadMap; quiet
instance (v a k) : Quiet (storeMap v a k) := by unfold storeMap; quiet
instance (v) : Quiet (loadStruct v) := by unfold loadStruct; quiet
instance (v) : Quiet (loadBox v) := by unfold loadBox; quiet
instance (v i) : Quiet (indexOf v i) := by unfold indexOf; quiet
instance (v i j) : Quiet (sliceOf v i j) := by unfold sliceOf; quiet
instance (m e s xs) : Quiet (appendSlice m e s xs) := by unfold appendSlice; quiet
instance (t args) : Quiet (makeOf t args) := by unfold makeOf; quiet
end

section
variable (c : Ctx) (W : Nat) (h : Heap)

/-- Code that is not in the package main. -/
class QuietCtx (c : Ctx) : Prop where
  pkg : c.pkg ≠ name! "main"
  imports : (c.imports.map importName).contains (name! "main") = false
  global : ∀ p x, p ≠ name! "main" → Quiet (c.global p x)
  callFunc : ∀ p x vs, p ≠ name! "main" → Quiet (c.callFunc p x vs)
  callMethod : ∀ v x vs, Quiet (c.callMethod v x vs)
  callValue : ∀ v vs, Quiet (c.callValue v vs)

theorem QuietCtx.imported {c : Ctx} [q : QuietCtx c] {p : Nat} (h : c.imported p = true) : p ≠ name! "main" := by
  rintro rfl
  have := q.imports
  unfold Ctx.imported at h
  rw [h] at this
  cases this

variable {c : Ctx} [q : QuietCtx c]
instance (x) : Quiet (c.global c.pkg x) := q.global _ _ q.pkg
instance (x vs) : Quiet (c.callFunc c.pkg x vs) := q.callFunc _ _ _ q.pkg
instance (v x vs) : Quiet (c.callMethod v x vs) := q.callMethod _ _ _
instance (v vs) : Quiet (c.callValue v vs) := q.callValue _ _

theorem quiet_evalLen : ∀ n, Quiet (evalLen c n)
  | .num n => by unfold evalLen; quiet
  | .name x => by unfold evalLen; quiet
  | .mul a b => by
    have := quiet_evalLen a
    have := quiet_evalLen b
    unfold evalLen; quiet
instance (n) : Quiet (evalLen c n) := quiet_evalLen n
theorem quiet_resolve : ∀ t, Quiet (resolve c t)
  | .name x => by unfold resolve; quiet
  | .slice t => by have := quiet_resolve t; unfold resolve; quiet
  | .array n t => by have := quiet_resolve t; unfold resolve; quiet
  | .ptr t => by have := quiet_resolve t; unfold resolve; quiet
  | .map k v => by have := quiet_resolve k; have := quiet_resolve v; unfold resolve; quiet
  | .qual p x => by unfold resolve; quiet
  | .fn => by unfold resolve; quiet
  | .inst p x t => by unfold resolve; quiet
instance (t) : Quiet (resolve c t) := quiet_resolve t
theorem quiet_fieldGet (x) : ∀ fs, Quiet (fieldGet x fs)
  | [] => by unfold fieldGet; quiet
  | _ :: fs => by have := quiet_fieldGet x fs; unfold fieldGet; quiet
instance (x fs) : Quiet (fieldGet x fs) := quiet_fieldGet x fs
instance (v x) : Quiet (fieldOf v x) := by unfold fieldOf; quiet
theorem quiet_makeStruct (g) : ∀ fs, Quiet (makeStruct c g fs)
  | [] => by unfold makeStruct; quiet
  | _ :: fs => by have := quiet_makeStruct g fs; unfold makeStruct; quiet
instance (g fs) : Quiet (makeStruct c g fs) := quiet_makeStruct g fs
theorem quiet_elements (t) : ∀ fs, Quiet (elements W t fs)
  | [] => by unfold elements; quiet
  | _ :: fs => by have := quiet_elements t fs; unfold elements; quiet
instance (t fs) : Quiet (elements W t fs) := quiet_elements W t fs
instance (x) : Quiet (globalOrPredeclared c x) := by unfold globalOrPredeclared; quiet
instance (x vs) : Quiet (callName c x vs) := by unfold callName; quiet
instance (s bs) : Quiet (writeBytes s bs) := by unfold writeBytes; quiet
instance (s) : Quiet (readBytes s) := by unfold readBytes; quiet
instance (e s t) : Quiet (cutOf e s t) := by unfold cutOf; quiet
instance (e s) : Quiet (trimOf e s) := by unfold trimOf; quiet
instance (e s t) : Quiet (splitOf e s t) := by unfold splitOf; quiet
instance (f) : Quiet (collectOf c f) := by unfold collectOf; quiet
instance (a s) : Quiet (appendBuffer a s) := by unfold appendBuffer; quiet
instance (v) : Quiet (formatArg v) := by unfold formatArg; quiet
theorem quiet_formatArgs : ∀ vs, Quiet (formatArgs vs)
  | [] => by unfold formatArgs; quiet
  | _ :: vs => by
    have := quiet_formatArgs vs
    unfold formatArgs; quiet
instance (vs) : Quiet (formatArgs vs) := quiet_formatArgs vs
instance (m e) : Quiet (survive m e) := by unfold survive; quiet
instance (x vs) : Quiet (fprint c x vs) := by
  have hq := q.pkg
  unfold fprint; quiet
  exact absurd (And.right (And.right ‹_ ∧ _ ∧ _›)) hq
instance (fs x vs) : Quiet (bufferMethod fs x vs) := by unfold bufferMethod; quiet
instance (m a x vs) : Quiet (fileMethod m a x vs) := by unfold fileMethod; quiet
instance (m s) : Quiet (formatSource m s) := by unfold formatSource; quiet
instance (p x vs) : Quiet (callLibrary c p x vs) := by
  have hq := q.pkg
  unfold callLibrary; quiet
  exact absurd (And.right (And.right ‹_ ∧ _ ∧ _›)) hq
theorem quiet_callQualified {p} (hp : p ≠ name! "main") (x vs) : Quiet (callQualified c p x vs) := by
  have := q.callFunc p x vs hp
  unfold callQualified; quiet
instance (m vs) : Quiet (appendOf m vs) := by unfold appendOf; quiet
instance (m vs) : Quiet (appendOne m vs) := by unfold appendOne; quiet
instance (vs) : Quiet (newStruct vs) := by unfold newStruct; quiet
instance (v i) : Quiet (addrElem v i) := by unfold addrElem; quiet
instance (v) : Quiet (derefOf v) := by unfold derefOf; quiet
instance (e x) [Quiet x] : Quiet (boundOf e x) := by unfold boundOf; quiet
instance (t x y) [Quiet x] [Quiet y] : Quiet (compOf c t x y) := by unfold compOf; quiet
end

section
variable {c : Ctx} [q : QuietCtx c]
mutual
theorem quiet_evalMulti (env : Env) : ∀ e, Quiet (evalMulti c env e)
  | .ident x => by unfold evalMulti; quiet
  | .num n => by unfold evalMulti; quiet
  | .str n => by unfold evalMulti; quiet
  | .sel e x => by
    have := quiet_evalMulti env e
    unfold evalMulti
    refine Quiet.ite (fun h => ?_) (fun _ => ?_)
    · cases e with
      | ident p =>
        dsimp only at h ⊢
        rw [Bool.and_eq_true] at h
        have := q.global p x (QuietCtx.imported h.2)
        quiet
      | _ => quiet
    · quiet
  | .call f args => by
    have := quiet_evalArgs env args
    cases f with
    | ident x => 
      unfold evalMulti
      refine Quiet.ite (fun _ => ?_) fun _ => ?_
      · quiet
      refine Quiet.ite (fun _ => ?_) fun _ => ?_
      · quiet
      refine Quiet.ite (fun _ => ?_) fun _ => ?_
      · cases args with
        | nil => quiet
        | cons e rest =>
          have := quiet_evalArgs env rest
          cases e <;> quiet
      · quiet
    | sel e x =>
      have := quiet_evalMulti env e
      unfold evalMulti
      refine Quiet.ite (fun h => ?_) (fun _ => ?_)
      · refine Quiet.bind (by assumption) fun _ => ?_
        cases e with
        | ident p =>
          dsimp only at h ⊢
          rw [Bool.and_eq_true] at h
          exact quiet_callQualified (QuietCtx.imported h.2) _ _
        | _ => quiet
      · quiet
    | _ => unfold evalMulti; quiet
  | .callSpread f args => by
    have := quiet_evalArgs env args
    unfold evalMulti; quiet
  | .index e i => by
    have := quiet_evalMulti env e
    have := quiet_evalMulti env i
    unfold evalMulti; quiet
  | .slice e lo hi => by
    have := quiet_evalMulti env e
    have := quiet_evalMulti env lo
    have := quiet_evalMulti env hi
    unfold evalMulti; quiet
  | .bin op a b => by
    have := quiet_evalMulti env a
    have := quiet_evalMulti env b
    have : Quiet (do let v ← evalMulti c env a; single v) := by quiet
    have : Quiet (do let v ← evalMulti c env b; single v) := by quiet
    unfold evalMulti; quiet
  | .not e => by
    have := quiet_evalMulti env e
    unfold evalMulti; quiet
  | .addr e => by
    cases e with
    | comp t es =>
      have := quiet_evalArgs env es
      have := quiet_evalKeyed env es
      unfold evalMulti; quiet
    | index e i =>
      have := quiet_evalMulti env e
      have := quiet_evalMulti env i
      unfold evalMulti; quiet
    | _ => unfold evalMulti; quiet
  | .deref e => by
    have := quiet_evalMulti env e
    unfold evalMulti; quiet
  | .comp t es => by
    have := quiet_evalArgs env es
    have := quiet_evalKeyed env es
    unfold evalMulti; quiet
  | .omitted | .keyed _ _ | .ty _ | .funcLit _ _ _ => by unfold evalMulti; quiet
  termination_by e => sizeOf e

theorem quiet_evalArgs (env : Env) : ∀ es, Quiet (evalArgs c env es)
  | .nil => by unfold evalArgs; quiet
  | .cons e es => by
    have := quiet_evalMulti env e
    have := quiet_evalArgs env es
    unfold evalArgs; quiet
  termination_by es => sizeOf es
theorem quiet_evalKeyed (env : Env) : ∀ es, Quiet (evalKeyed c env es)
  | .nil => by unfold evalKeyed; quiet
  | .cons e es => by
    have := quiet_evalKeyed env es
    cases e with
    | keyed x e => 
      have := quiet_evalMulti env e
      unfold evalKeyed; quiet
    | _ => unfold evalKeyed; quiet
  termination_by es => sizeOf es
end

instance (env e) : Quiet (evalMulti c env e) := quiet_evalMulti env e
instance (env e) : Quiet (evalArgs c env e) := quiet_evalArgs env e
instance (env e) : Quiet (eval c env e) := by unfold eval; quiet
instance (env n es) : Quiet (evalRight c env n es) := by unfold evalRight; quiet
instance (env e) : Quiet (evalL c env e) := by unfold evalL; quiet
theorem quiet_evalLs (env) : ∀ es, Quiet (evalLs c env es)
  | .nil => by unfold evalLs; quiet
  | .cons e es => by have := quiet_evalLs env es; unfold evalLs; quiet
instance (env es) : Quiet (evalLs c env es) := quiet_evalLs env es
end

section
variable (W : Nat)
instance (a b) : Quiet (replace W a b) := by unfold replace; quiet
instance (env l) : Quiet (loadL env l) := by unfold loadL; quiet
instance (env l v) : Quiet (storeL W env l v) := by unfold storeL; quiet
theorem quiet_storeLs : ∀ ls vs env, Quiet (storeLs W env ls vs)
  | [], [], _ => by unfold storeLs; quiet
  | [], _ :: _, _ => by unfold storeLs; quiet
  | _ :: _, [], _ => by unfold storeLs; quiet
  | _ :: ls, _ :: vs, _ => by
    have := quiet_storeLs ls vs
    unfold storeLs; quiet
instance (env ls vs) : Quiet (storeLs W env ls vs) := quiet_storeLs W ls vs env
instance (env x v) : Quiet (declare env x v) := by unfold declare; quiet
theorem quiet_defineAll (base) : ∀ ls vs env, Quiet (defineAll W base env ls vs)
  | [], [], _ => by unfold defineAll; quiet
  | [], _ :: _, _ => by unfold defineAll; quiet
  | _ :: _, [], _ => by unfold defineAll; quiet
  | _ :: ls, _ :: vs, _ => by
    have := quiet_defineAll base ls vs
    unfold defineAll
    refine Quiet.bind ?_ fun _ => this _
    quiet
instance (base env ls vs) : Quiet (defineAll W base env ls vs) := quiet_defineAll W base ls vs env
theorem quiet_declareZero (t) : ∀ xs env, Quiet (declareZero env t xs)
  | [], _ => by unfold declareZero; quiet
  | _ :: xs, _ => by
    have := quiet_declareZero t xs
    unfold declareZero; quiet <;> exact this _
instance (env t xs) : Quiet (declareZero env t xs) := quiet_declareZero t xs env
theorem quiet_capture : ∀ env, Quiet (capture env)
  | [] => by unfold capture; quiet
  | _ :: env => by have := quiet_capture env; unfold capture; quiet
instance (env) : Quiet (capture env) := quiet_capture env
theorem quiet_loopN {cond : Env → M Bool} {body post : Env → M Out} (h1 : ∀ env, Quiet (cond env)) (h2 : ∀ env, Quiet (body env))
    (h3 : ∀ env, Quiet (post env)) : ∀ n env, Quiet (loopN cond body post n env)
  | 0, _ => by unfold loopN; quiet
  | n + 1, env => by
    have := quiet_loopN h1 h2 h3 n
    have := h1 env
    have := h2 env
    unfold loopN; quiet <;> first | exact h3 _ | apply_assumption
theorem quiet_rangeN {body : Nat → Env → M Out} (h1 : ∀ i env, Quiet (body i env)) : ∀ n i env, Quiet (rangeN body n i env)
  | 0, _, _ => by unfold rangeN; quiet
  | n + 1, i, env => by
    have := quiet_rangeN h1 n (i + 1)
    have := h1 i env
    unfold rangeN; quiet <;> apply_assumption
instance (s k v i env) : Quiet (rangeVars s k v i env) := by unfold rangeVars; quiet
end

section
variable {c : Ctx} [q : QuietCtx c] (L : Nat)
theorem quiet_matches (env tag) : ∀ es, Quiet (matches_ c env tag es)
  | .nil => by unfold matches_; quiet
  | .cons e es => by have := quiet_matches env tag es; unfold matches_; quiet
instance (env tag es) : Quiet (matches_ c env tag es) := quiet_matches env tag es

mutual
theorem quiet_exec : ∀ s base env, Quiet (exec c L s base env)
  | .skip, _, _ => by unfold exec; quiet
  | .define xs es, _, _ => by unfold exec; quiet
  | .assign xs es, _, _ => by unfold exec; quiet
  | .opAssign _ _ _, _, _ => by unfold exec; quiet
  | .varDecl xs es, _, _ => by unfold exec; quiet
  | .expr xs, _, _ => by unfold exec; quiet
  | .ret es, _, _ => by
    unfold exec; quiet
    exact Quiet.alloc ⟨q.pkg, q.imports⟩
  | .ifThen init cond thn els, _, env => by
    have := quiet_exec init env.length env
    have := quiet_execs thn
    have := quiet_execs els
    unfold exec; quiet <;> apply_assumption
  | .loop init cond post body, _, env => by
    have := quiet_exec init env.length env
    have h1 := quiet_execs body
    have h2 := quiet_exec post
    unfold exec; quiet
    all_goals refine quiet_loopN (fun _ => ?_) (fun _ => ?_) (fun _ => ?_) _ _ <;> quiet
  | .range k v e body, _, env => by
    have h1 := quiet_execs body
    unfold exec; quiet
    refine quiet_rangeN (fun _ _ => ?_) _ _ _
    quiet
  | .switch tag clauses, _, env => by
    have h1 := quiet_execCases clauses
    have h2 := quiet_execDefault clauses
    unfold exec; quiet
  | .block ss, _, _ => by
    have h1 := quiet_execs ss
    unfold exec; quiet
  | .brk, _, _ => by unfold exec; quiet
  | .cont, _, _ => by unfold exec; quiet
  termination_by s => sizeOf s
theorem quiet_execs : ∀ ss base env, Quiet (execs c L ss base env)
  | .nil, _, _ => by unfold execs; quiet
  | .cons s ss, base, env => by
    have := quiet_exec s base env
    have h1 := quiet_execs ss
    unfold execs; quiet
  termination_by s => sizeOf s
theorem quiet_execCases : ∀ cs tag env, Quiet (execCases c L tag cs env)
  | .nil, _, _ => by unfold execCases; quiet
  | .dflt _ rest, _, _ => by
    have h1 := quiet_execCases rest
    unfold execCases; quiet
  | .case es body rest, _, _ => by
    have h1 := quiet_execCases rest
    have h2 := quiet_execs body
    unfold execCases; quiet
  termination_by s => sizeOf s
theorem quiet_execDefault : ∀ cs env, Quiet (execDefault c L cs env)
  | .nil, _ => by unfold execDefault; quiet
  | .dflt body _, _ => by
    have h1 := quiet_execs body
    unfold execDefault; quiet
  | .case es body rest, _ => by
    have h1 := quiet_execDefault rest
    unfold execDefault; quiet
  termination_by s => sizeOf s
end
instance (ss base env) : Quiet (execs c L ss base env) := quiet_execs L ss base env
theorem quiet_bindParams : ∀ ps vs env, Quiet (bindParams c env ps vs)
  | [], [], _ => by unfold bindParams; quiet
  | [], _ :: _, _ => by unfold bindParams; quiet
  | _ :: _, [], _ => by unfold bindParams; quiet
  | _ :: ps, _ :: vs, _ => by
    have := quiet_bindParams ps vs
    unfold bindParams; quiet
instance (ps vs env) : Quiet (bindParams c env ps vs) := quiet_bindParams ps vs env
theorem quiet_results : ∀ ps vs, Quiet (results c ps vs)
  | [], [] => by unfold results; quiet
  | [], _ :: _ => by unfold results; quiet
  | _ :: _, [] => by unfold results; quiet
  | _ :: ps, _ :: vs => by
    have := quiet_results ps vs
    unfold results; quiet
instance (ps vs) : Quiet (results c ps vs) := quiet_results ps vs
instance (f r vs) : Quiet (callWith c L f r vs) := by unfold callWith; quiet
instance (vars p x g) : Quiet (globalValue c vars p x g) := by unfold globalValue; quiet
instance (m a x vs) : Quiet (scannerMethod m a x vs) := by unfold scannerMethod; quiet
end

/-- The references to code that is not in the package main. -/
def QuietRef : Ref → Prop
  | .global p _ => p ≠ name! "main"
  | .func p _ _ => p ≠ name! "main"
  | _ => True

/-- No file of another package imports a package with the name main; and the package main declares no methods. -/
structure QuietProgram (prog : Program) : Prop where
  imports : ∀ f ∈ prog, f.pkg ≠ name! "main" → (f.imports.map importName).contains (name! "main") = false
  methods : ∀ f ∈ prog, f.pkg = name! "main" → ∀ t x, findMethodDecl t x f.decls = none

theorem find_imports {p x : Nat} : ∀ {prog : Program} {g i}, find p x prog = some (g, i) → ∃ f ∈ prog, f.pkg = p ∧ f.imports = i
  | [], _, _, h => nomatch h
  | f :: fs, g, i, h => by
    unfold find at h
    split at h
    · split at h
      · cases h
        exact ⟨f, List.mem_cons_self, by assumption, rfl⟩
      · obtain ⟨f', h1, h2⟩ := find_imports h
        exact ⟨f', List.mem_cons_of_mem _ h1, h2⟩
    · obtain ⟨f', h1, h2⟩ := find_imports h
      exact ⟨f', List.mem_cons_of_mem _ h1, h2⟩

theorem findMethod_imports {t x} : ∀ {prog : Program} {g i}, findMethod t x prog = some (g, i) →
    ∃ f ∈ prog, f.pkg = t.pkg ∧ f.imports = i ∧ findMethodDecl t.name x f.decls = some g
  | [], _, _, h => nomatch h
  | f :: fs, g, i, h => by
    unfold findMethod at h
    split at h
    · split at h
      · cases h
        exact ⟨f, List.mem_cons_self, by assumption, rfl, by assumption⟩
      · obtain ⟨f', h1, h2⟩ := findMethod_imports h
        exact ⟨f', List.mem_cons_of_mem _ h1, h2⟩
    · obtain ⟨f', h1, h2⟩ := findMethod_imports h
      exact ⟨f', List.mem_cons_of_mem _ h1, h2⟩

theorem quiet_mkCtx {prog m self p i} (hs : ∀ r, QuietRef r → Quiet (self r)) (hp : p ≠ name! "main")
    (hi : ((i : List Nat).map importName).contains (name! "main") = false) : QuietCtx (mkCtx prog m self p i) where
  pkg := hp
  imports := hi
  global := fun p x h => by
    have := hs (.global p x) h
    unfold mkCtx; dsimp only; quiet
  callFunc := fun p x vs h => hs (.func p x vs) h
  callMethod := fun v x vs => hs (.method v x vs) trivial
  callValue := fun v vs => hs (.value v vs) trivial

theorem quiet_run {prog : Program} (hq : QuietProgram prog) (m vars L) : ∀ d r, QuietRef r → Quiet (run prog m vars L d r)
  | 0, r, _ => by unfold run; quiet
  | d + 1, r, hr => by
    have ih := quiet_run hq m vars L d
    unfold run
    cases r with
    | global p x =>
      unfold runStep
      dsimp only
      split
      · rename_i g i h
        obtain ⟨f, h1, h2, h3⟩ := find_imports h
        have := quiet_mkCtx (prog := prog) (m := m) ih hr (h3 ▸ hq.imports f h1 (h2 ▸ hr))
        quiet
      · quiet
    | func p x vs =>
      unfold runStep
      dsimp only
      split
      · rename_i g i h
        obtain ⟨f, h1, h2, h3⟩ := find_imports h
        have := quiet_mkCtx (prog := prog) (m := m) ih hr (h3 ▸ hq.imports f h1 (h2 ▸ hr))
        quiet
      · quiet
    | method v x vs =>
      unfold runStep
      dsimp only
      split
      · split
        · rename_i t _ _ g i h
          obtain ⟨f, h1, h2, h3, h4⟩ := findMethod_imports h
          have hne : f.pkg ≠ name! "main" := fun e => by
            have := hq.methods f h1 e t.name x
            rw [h4] at this
            cases this
          have := quiet_mkCtx (prog := prog) (m := m) ih (h2 ▸ hne) (h3 ▸ hq.imports f h1 hne)
          quiet
        · quiet
      · quiet
    | value v vs =>
      unfold runStep callValue
      dsimp only
      cases v with
      | func a =>
        dsimp only
        refine Quiet.load_bind fun o ho => ?_
        cases o with
        | closure p i ps body env =>
          have := quiet_mkCtx (prog := prog) (m := m) ih ho.1 ho.2
          quiet
        | _ => quiet
      | _ => quiet

end Textseg.GoMem
