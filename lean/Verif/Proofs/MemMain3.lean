import Verif.Proofs.MemMain2
/-!
# The code of the command charprops/generate.go does what the model says: the loops over rows
-/

namespace Textseg.GoMem
open Textseg.GoLang (TyId tyInt tyU8 Halt importName wrap)
set_option linter.unusedSimpArgs false

@[mem_exec ↓] theorem operator_rem (h : Heap) (W : Nat) (x y : M Val) : operator W .rem x y h = bindR (x h) fun v h => bindR (y h) fun w h => binary W .rem v w h :=
  operator_strict W h _ x y (fun h => (by cases h)) (fun h => (by cases h))

/-- The outcome of a part of the program that prints. -/
def printedTo (env : Env) (g : Heap) (bs : GoString) : Go GoString → Except Halt (Out × Heap)
  | .ok s => .ok (.next env, withBuf g (bs ++ s))
  | .error p => .error (.panic p)

/-- A slice in the memory, with its elements. -/
structure SliceIs {α : Type} (toV : α → Val) (g : Heap) (s : Sl) (xs : List α) : Prop where
  arr : ∃ l, g[s.a]? = some (.arr l) ∧ ∀ k x, xs[k]? = some x → l[s.off + k]? = some (toV x)
  len : s.len = xs.length
  cap : xs.length ≤ s.cap

/-- The same for a slice that may be nil. -/
def OptSlice {α : Type} (toV : α → Val) (g : Heap) (s : Option Sl) (xs : List α) : Prop :=
  match s with
  | none => xs = []
  | some s => SliceIs toV g s xs

/-- What is known about the elements and about what is printed for one. -/
structure ItemSpec {α : Type} (c : Ctx) (L : Nat) (g : Heap) (at_ : Nat) (toV : α → Val) (item : α → Go GoString) (inner : Stmts) : Prop where
  declare : ∀ (env : Env) x h, declare env (name! "v") (toV x) h = .ok ((name! "v", toV x) :: env, h)
  inner : ∀ (env : Env) bs n x, EnvX env g at_ → execs c L inner n ((name! "v", toV x) :: env) (withBuf g bs) =
    printedTo ((name! "v", toV x) :: env) g bs (item x)

theorem getElem?_withBuf {g : Heap} {a : Nat} {o : Obj} (h : g[a]? = some o) (bs : GoString) : (withBuf g bs)[a]? = some o := by
  rw [withBuf, List.getElem?_append_left (lt_of_some h), h]

section
variable {α : Type} {c : Ctx} {L : Nat} {g : Heap} {at_ : Nat} {toV : α → Val} {item : α → Go GoString} {inner : Stmts}
  (hi : ItemSpec c L g at_ toV item inner)
include hi

theorem row_range (env : Env) (he : EnvX env g at_) (s : Sl) (l : List Val) (hg : g[s.a]? = some (.arr l)) : ∀ (xs : List α) (j : Nat) (bs : GoString),
    (∀ k x, xs[k]? = some x → l[s.off + j + k]? = some (toV x)) →
    rangeN (rangeBody c L s (name! "_") (name! "v") inner) xs.length j env (withBuf g bs) = printedTo env g bs ((xs.mapM item).map List.flatten)
  | [], j, bs, _ => by simp [rangeN_zero, printedTo, pure, Except.pure, Except.map]
  | x :: xs, j, bs, hl => by
    have h0 := hl 0 x rfl
    have hv : rangeVars s (name! "_") (name! "v") j env (withBuf g bs) = .ok ((name! "v", toV x) :: env, withBuf g bs) := by
      simp only [Nat.add_zero] at h0
      simp [mem_exec, rangeVars, loadElem, load_some (getElem?_withBuf hg bs), h0]
      exact hi.declare _ _ _
    rw [List.length_cons, rangeN_succ, rangeBody_apply, hv, bindR_ok, hi.inner env bs _ x he]
    rw [List.mapM_cons]
    rcases hx : item x with p | t
    · rfl
    · simp only [printedTo, bindR_ok, List.length_cons, leave_next, rangeNext, Nat.add_sub_cancel_left, List.drop_succ_cons, List.drop_zero]
      have := row_range env he s l hg xs (j + 1) (bs ++ t) (fun k y hk => by
        have := hl (k + 1) y hk
        rwa [show s.off + j + (k + 1) = s.off + (j + 1) + k by omega] at this)
      rw [this]
      simp only [bind, Except.bind]
      rcases List.mapM item xs with p | ts
      · rfl
      · simp [printedTo, Except.map, pure, Except.pure]
end

theorem readSlice_elems {α : Type} (toV : α → Val) {g : Heap} {s : Option Sl} {xs : List α} (hr : readSlice s g = .ok (xs.map toV, g))
    (hl : Spec.HasLen s xs.length) : OptSlice toV g s xs := by
  rcases s with _ | s
  · exact List.length_eq_zero_iff.mp hl
  · obtain ⟨hl1, hl2⟩ := hl
    rcases hb : g[s.a]? with _ | o
    · simp only [readSlice, bind_apply, load, hb] at hr
      cases hr
    · cases o with
      | arr l =>
        rw [readSlice_some hb] at hr
        have hr := congrArg (fun r => match r with | .ok (l, _) => l | .error _ => []) hr
        simp only at hr
        refine ⟨⟨l, hb, fun k x hk => ?_⟩, hl1, hl2⟩
        have h1 : ((l.drop s.off).take s.len)[k]? = some (toV x) := by rw [hr]; simp [hk]
        rw [List.getElem?_take] at h1
        split at h1
        · rwa [List.getElem?_drop] at h1
        · cases h1
      | _ =>
        rw [show readSlice (some s) g = bindR (load s.a g) _ from rfl, load_some hb] at hr
        cases hr

section
variable (m : Machine) (hW : 32 ≤ m.W) (L d : Nat) {g : Heap} {at_ : Nat} {env : Env} (he : EnvX env g at_)
  {α : Type} {toV : α → Val} {e : GTy} {item : α → Go GoString} {inner : Stmts}
  (hi : ItemSpec (ctxM m L (d + 1)) L g at_ toV item inner) {f : Nat} {fs : List (Nat × Val)} (hat : g[at_]? = some (.struct tRaw fs))
  {s : Option Sl} (hf : ∀ h, fieldGet f fs h = .ok (.slice noName e s, h))
include he hat hf

omit hi in
theorem condX_eq (bs : GoString) (i : Int) : eval (ctxM m L (d + 1)) ((name! "i", .int tyInt i) :: env) (condX f) (withBuf g bs) =
    .ok (.bool (decide (i < ((s.map (·.len)).getD 0 : Nat))), withBuf g bs) := by
  have hld := load_some (getElem?_withBuf hat bs)
  cases s <;> simp [mem_exec, condX, he.tree, he.len, loadStruct, hld, hf, len]

omit hi hf hat he in
include hW in
theorem postX_eq (h : Heap) (i : Nat) (hi : i < 20000000) (n : Nat) : exec (ctxM m L (d + 1)) L postX n ((name! "i", .int tyInt (i : Nat)) :: env) h =
    .ok (.next ((name! "i", .int tyInt ((i + 8 : Nat) : Int)) :: env), h) := by
  have h8 : wrap m.W 8 = 8 := wrap_small m.W hW 8 (by decide) (by decide)
  have hi8 : wrap m.W ((i : Int) + 8) = (i : Int) + 8 := wrap_small m.W hW _ (by omega) (by omega)
  simp [mem_exec, postX, h8, hi8, intOp]

/-- What is printed for a row. -/
def rowText (item : α → Go GoString) (xs : List α) (i : Nat) : Go GoString :=
  (((xs.drop i).take 8).mapM item).map fun row =>
    (if i % 64 = 0 then str "  // block 0x" ++ Gen.sprintf04x (i >>> 6) ++ str "\n" else []) ++ str "\t" ++ row.flatten ++ str "\n"

omit hat hf in
include hW in
theorem comment_eq (bs : GoString) (i n : Nat) : exec (ctxM m L (d + 1)) L (.ifThen .skip (.bin .eq (.bin .rem (.ident (name! "i")) (.num 64)) (.num 0))
    (.cons (printfS (name! "  // block 0x%04x\n") (.bin .shr (.ident (name! "i")) (.num 6))) .nil) .nil) n ((name! "i", .int tyInt (i : Int)) :: env) (withBuf g bs) =
    .ok (.next ((name! "i", .int tyInt (i : Int)) :: env), withBuf g (bs ++
      if i % 64 = 0 then str "  // block 0x" ++ Gen.sprintf04x (i >>> 6) ++ str "\n" else [])) := by
  have h64 : wrap m.W 64 = 64 := wrap_small m.W hW 64 (by decide) (by decide)
  have h0 : wrap m.W 0 = 0 := wrap_small m.W hW 0 (by decide) (by decide)
  have hmod : (Int.tmod (i : Int) 64 == 0) = decide (i % 64 = 0) := by
    rw [Int.tmod_eq_emod_of_nonneg (by omega), Bool.eq_iff_iff]
    simp
    omega
  have hsh : evalMulti (ctxM m L (d + 1)) ((name! "i", .int tyInt (i : Int)) :: env) (.bin .shr (.ident (name! "i")) (.num 6)) (withBuf g bs) =
      .ok ([.int tyInt ((i >>> 6 : Nat) : Int)], withBuf g bs) := by
    simp [mem_exec, shiftRight, Nat.shiftRight_eq_div_pow]
  by_cases h : i % 64 = 0
  · have hp := fun n => printf_eq m L (d + 1) (he.push (name! "i") (.int tyInt (i : Int)) (.inl rfl)) bs n (name! "  // block 0x%04x\n") _ _ hsh _ (format_block _)
    simp [mem_exec, intOp, h64, h0, hmod, h, hp]
  · simp [mem_exec, intOp, h64, h0, hmod, h]

include hW hi in
theorem row_eq (s0 : Sl) (hs0 : s = some s0) (xs : List α) (hx : SliceIs toV g s0 xs) (hlen : xs.length < 20000000) (bs : GoString) (i : Nat) (hlt : i < xs.length) :
    ∃ v, execs (ctxM m L (d + 1)) L (bodyX f inner) (env.length + 1) ((name! "i", .int tyInt (i : Int)) :: env) (withBuf g bs) =
      printedTo ((name! "items", v) :: (name! "i", .int tyInt (i : Int)) :: env) g bs (rowText item xs i) := by
  subst hs0
  obtain ⟨l, hl1, hl2⟩ := hx.arr
  have hlen0 := hx.len
  have hcap := hx.cap
  have h8 : wrap m.W 8 = 8 := wrap_small m.W hW 8 (by decide) (by decide)
  refine ⟨.slice noName e (some ⟨s0.a, s0.off + i, min (xs.length - i) 8, s0.cap - i⟩), ?_⟩
  have hld := fun bs => load_some (getElem?_withBuf hat bs)
  have he1 := he.push (name! "i") (.int tyInt (i : Int)) (.inl rfl)
  have he2 := he1.push (name! "items") (.slice noName e (some ⟨s0.a, s0.off + i, min (xs.length - i) 8, s0.cap - i⟩)) (.inr (.inl rfl))
  have c1 : i ≤ xs.length := by omega
  have c3 : min ((xs.length - i : Nat) : Int) 8 = ((min (xs.length - i) 8 : Nat) : Int) := by omega
  have c2 : min (xs.length - i) 8 ≤ s0.cap - i := by omega
  have hlen8 : ((xs.drop i).take 8).length = min (xs.length - i) 8 := by simp; omega
  have hr := fun bs => row_range hi _ he2 ⟨s0.a, s0.off + i, min (xs.length - i) 8, s0.cap - i⟩ l hl1 ((xs.drop i).take 8) 0 bs (by
    intro k x hk
    rw [List.getElem?_take] at hk
    split at hk
    · rw [List.getElem?_drop] at hk
      have := hl2 _ _ hk
      simp only [Nat.add_zero]
      rw [← this, Nat.add_assoc]
    · cases hk)
  rw [hlen8] at hr
  have hp1 := fun bs n => print_eq m L (d + 1) he2 bs n (name! "\t")
  have hp2 := fun bs n => print_eq m L (d + 1) he2 bs n (name! "\n")
  have hc := fun n => comment_eq m hW L d he bs i n
  rw [bodyX, execs_cons, hc]
  have e1 : textLine (name! "\t") = str "\t" := by decide
  have e2 : textLine (name! "\n") = str "\n" := by decide
  simp [mem_exec, he.tree, he.len, he.min, loadStruct, hld, hf, c1, c2, c3, hcap, hlen0, callNM_min, h8, len, hp1, extent, hr]
  rw [rowText]
  rcases List.mapM item ((xs.drop i).take 8) with p | row
  · rfl
  · simp [printedTo, Except.map, mem_exec, hp2, e1, e2]
omit he hat hf in
theorem printRows_row {α : Type} (item : α → Go GoString) (xs : List α) (fuel i : Nat) (hlt : i < xs.length) :
    Gen.printRows item xs (fuel + 1) i = (rowText item xs i) >>= fun r => (Gen.printRows item xs fuel (i + 8)).map (r ++ ·) := by
  rw [Gen.printRows, if_pos hlt]
  have h1 : goSliceFrom xs i = .ok (xs.drop i) := by
    unfold goSliceFrom; rw [if_pos (by omega)]
  have h2 : goSliceTo (xs.drop i) (min (xs.drop i).length 8) = .ok ((xs.drop i).take 8) := by
    unfold goSliceTo
    rw [if_pos (by omega)]
    congr 1
    rw [Nat.min_comm, ← List.take_eq_take_min]
  simp only [bind, Except.bind, h1, h2, rowText]
  rcases List.mapM item ((xs.drop i).take 8) with p | row
  · rfl
  · rfl

include hW hi in
theorem rows_loop (xs : List α) (hx : OptSlice toV g s xs) (hlen : xs.length < 20000000) : ∀ (fuel k i : Nat) (bs : GoString), 1 ≤ fuel → xs.length < i + fuel → fuel ≤ k →
    ∃ j : Int, forLoop (ctxM m L (d + 1)) L (condX f) postX (bodyX f inner) k ((name! "i", .int tyInt (i : Int)) :: env) (withBuf g bs) =
      printedTo ((name! "i", .int tyInt j) :: env) g bs (Gen.printRows item xs fuel i) := by
  have hs : (s.map (·.len)).getD 0 = xs.length := by
    rcases s with _ | s
    · simp only [OptSlice] at hx; rw [hx]; rfl
    · exact hx.len
  intro fuel
  induction fuel with
  | zero => intro k i bs h; omega
  | succ fuel ih =>
    intro k i bs _ hf1 hk
    obtain ⟨k, rfl⟩ : ∃ j, k = j + 1 := ⟨k - 1, by omega⟩
    rw [forLoop_succ, condX_eq m L d he hat hf bs i, hs]
    simp only [bindR_ok, boolValue_bool]
    by_cases hlt : i < xs.length
    · rw [if_pos (by simpa using hlt)]
      rcases s with _ | s0
      · simp only [OptSlice] at hx; rw [hx] at hlt; simp at hlt
      · obtain ⟨v, hrow⟩ := row_eq m hW L d he hi hat hf s0 rfl xs hx hlen bs i hlt
        rw [List.length_cons, hrow, printRows_row item xs fuel i hlt]
        rcases rowText item xs i with p | r
        · exact ⟨0, rfl⟩
        · obtain ⟨j, hj⟩ := ih k (i + 8) (bs ++ r) (by omega) (by omega) (by omega)
          refine ⟨j, ?_⟩
          simp only [printedTo, bindR_ok, leave_next, List.length_cons]
          rw [show env.length + 1 + 1 - (env.length + 1) = 1 by omega]
          simp only [List.drop_succ_cons, List.drop_zero, forNext]
          rw [postX_eq m hW L d _ i (by omega)]
          simp only [bindR_ok, forAgain]
          rw [hj]
          simp only [bind, Except.bind]
          rcases Gen.printRows item xs fuel (i + 8) with p | t
          · rfl
          · simp [printedTo, Except.map]
    · rw [if_neg (by simpa using hlt)]
      refine ⟨i, ?_⟩
      rw [Gen.printRows, if_neg hlt]
      simp [printedTo]

include hW hi in
/-- A loop over rows. -/
theorem loopX_eq (xs : List α) (hx : OptSlice toV g s xs) (hlen : xs.length < 20000000) (hL : xs.length + 1 ≤ L) (bs : GoString) (n : Nat) :
    exec (ctxM m L (d + 1)) L (loopX f inner) n env (withBuf g bs) = printedTo env g bs (Gen.printRows item xs (xs.length + 1) 0) := by
  obtain ⟨j, hj⟩ := rows_loop m hW L d he hi hat hf xs hx hlen (xs.length + 1) L 0 bs (by omega) (by omega) hL
  have h0 : wrap m.W 0 = 0 := wrap_small m.W hW 0 (by decide) (by decide)
  rw [loopX, condX, exec_for]
  rw [show exec (ctxM m L (d + 1)) L (.define [name! "i"] (.cons (.num 0) .nil)) env.length env (withBuf g bs) =
    .ok (.next ((name! "i", .int tyInt ((0 : Nat) : Int)) :: env), withBuf g bs) by simp [mem_exec, h0]]
  simp only [bindR_ok]
  rw [← condX, hj]
  rcases Gen.printRows item xs (xs.length + 1) 0 with p | t
  · rfl
  · simp only [printedTo, bindR_ok, leave_next, List.length_cons]
    rw [show env.length + 1 - env.length = 1 by omega]
    rfl
end

end Textseg.GoMem
