import Verif.Proofs.GoLookups
/-!
# Running the code of property_table_raw.go and property_table.go
-/

namespace Textseg.GoLang
open Textseg

set_option linter.unusedSimpArgs false

/-! ### The tables -/

theorem evalArgs_literals (c : Ctx) (env : Env) : ∀ xs : List UInt8,
    evalArgs c env (literals xs) = .ok (xs.map fun x => .const x.toNat)
  | [] => rfl
  | x :: xs => by
    simp only [literals, go_exec, evalArgs_literals c env xs, List.map_cons]

theorem elements_consts (W : Nat) (t : TyId) : ∀ xs : List UInt8,
    elements W t (xs.map fun x => .const x.toNat) = .ok xs
  | [] => rfl
  | x :: xs => by
    have h : (0 : Int) ≤ x.toNat ∧ (x.toNat : Int) < 256 := by have := x.toNat_lt; omega
    simp only [List.map_cons, elements, assignTo, h, and_self, if_true, go_exec, elements_consts W t xs]
    simp

theorem flatMap_getElem {α β : Type} (f : α → List β) (k : Nat) (hf : ∀ a, (f a).length = k) (hk : 0 < k) :
    ∀ (l : List α) (i : Nat), (l.flatMap f)[i]? = (l[i / k]?).bind fun a => (f a)[i % k]?
  | [], i => by simp
  | a :: l, i => by
    rw [List.flatMap_cons]
    by_cases h : i < k
    · rw [List.getElem?_append_left (by rw [hf]; exact h), Nat.div_eq_of_lt h, Nat.mod_eq_of_lt h]
      rfl
    · rw [List.getElem?_append_right (by rw [hf]; omega), hf, flatMap_getElem f k hf hk l (i - k)]
      have h1 : i = (i - k) + k := by omega
      have h2 : i / k = (i - k) / k + 1 := by
        conv => lhs; rw [h1]
        exact Nat.add_div_right _ hk
      have h3 : (i - k) % k = i % k := by
        conv => rhs; rw [h1]
        rw [Nat.add_mod_right]
      rw [h2, List.getElem?_cons_succ, h3]

theorem tableList_getElem (t : PackedTable) (i : Nat) :
    (tableList t)[i]? = match t.index i with
      | .ok b => some b
      | .error _ => none := by
  unfold tableList PackedTable.index
  rw [flatMap_getElem _ 64 (by intro b; simp) (by decide)]
  cases t.blocks[i / 64]? with
  | none => rfl
  | some b =>
    show ((List.range 64).map (blockByte b))[i % 64]? = some _
    have h : i % 64 < 64 := Nat.mod_lt _ (by decide)
    simp [List.getElem?_map, List.getElem?_range h]

/-- A result of the model as a value. -/
def liftV {α : Type} (f : α → Val) : Go α → R Val
  | .ok a => .ok (f a)
  | .error p => .error (.panic p)

theorem index_error (t : PackedTable) (i : Nat) (p : GoPanic) (h : t.index i = .error p) : p = .indexOutOfRange := by
  unfold PackedTable.index at h
  split at h <;> cases h
  rfl

theorem indexOf_table (ty : TyId) (t : PackedTable) (i : Nat) :
    indexOf (.arr ty (tableList t)) (i : Int) = liftV (.u8 ty) (t.index i) := by
  have h0 : (0 : Int) ≤ i := by omega
  simp only [indexOf, h0, if_true, Int.toNat_natCast, tableList_getElem]
  cases h : t.index i with
  | ok b => rfl
  | error p => rw [index_error t i p h]; rfl

theorem indexOf_bytes (s : Option (List UInt8)) (i : Nat) :
    indexOf (.bytes s) (i : Int) = liftV (.u8 tyU8) (goIndex (s.getD []) i) := by
  have h0 : (0 : Int) ≤ i := by omega
  simp only [indexOf, h0, if_true, Int.toNat_natCast, goIndex]
  cases (s.getD [])[i]? <;> rfl

variable (W L d : Nat)

theorem globalValue_indices (xs : List UInt8) :
    (globalValue (ctxR W L d) (.var (.comp (.array (.name (name! "uint8"))) (literals xs))) >>= fun v => Except.ok [v]) =
    .ok [.arr tyU8 xs] := by
  simp only [globalValue, eval, evalMulti, evalArgs_literals, go_exec, elements_consts, defineAs]
theorem globalValue_props (xs : List UInt8) :
    (globalValue (ctxR W L d) (.var (.comp (.array (.name (name! "CharProperties"))) (literals xs))) >>= fun v => Except.ok [v]) =
    .ok [.arr tCP xs] := by
  simp only [globalValue, eval, evalMulti, evalArgs_literals, go_exec, elements_consts, defineAs]

theorem run_global (p x : Nat) (g : Global) (im : List Nat) (h : find p x library = some (g, im)) :
    run library W L (d + 1) (.global p x) =
    (globalValue (mkCtx library W (run library W L d) p im) g >>= fun v => Except.ok [v]) := by
  show runStep library W L (run library W L d) _ = _
  unfold runStep
  simp only [h]

theorem run_lookupIndices : run library W L (d + 1) (.global (name! "charprops") (name! "lookupIndices")) =
    .ok [.arr tyU8 (tableList lookupIndices)] := by
  rw [run_global W L d (name! "charprops") (name! "lookupIndices")
    (.var (.comp (.array (.name (name! "uint8"))) (literals (tableList lookupIndices)))) [] (by kernel_rfl)]
  exact globalValue_indices W L d (tableList lookupIndices)

theorem run_lookupProps : run library W L (d + 1) (.global (name! "charprops") (name! "lookupProps")) =
    .ok [.arr tCP (tableList lookupProps)] := by
  rw [run_global W L d (name! "charprops") (name! "lookupProps")
    (.var (.comp (.array (.name (name! "CharProperties"))) (literals (tableList lookupProps)))) [] (by kernel_rfl)]
  exact globalValue_props W L d (tableList lookupProps)

theorem ctxT_lookupIndices : globalOrPredeclared (ctxT W L (d + 1)) (name! "lookupIndices") =
    .ok (.arr tyU8 (tableList lookupIndices)) := by
  have h : globalOrPredeclared (ctxT W L (d + 1)) (name! "lookupIndices") =
    (run library W L (d + 1) (.global (name! "charprops") (name! "lookupIndices")) >>= fun vs => single vs) := by kernel_rfl
  rw [h, run_lookupIndices]
  rfl
theorem ctxT_lookupProps : globalOrPredeclared (ctxT W L (d + 1)) (name! "lookupProps") =
    .ok (.arr tCP (tableList lookupProps)) := by
  have h : globalOrPredeclared (ctxT W L (d + 1)) (name! "lookupProps") =
    (run library W L (d + 1) (.global (name! "charprops") (name! "lookupProps")) >>= fun vs => single vs) := by kernel_rfl
  rw [h, run_lookupProps]
  rfl

end Textseg.GoLang
