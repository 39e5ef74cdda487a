import Verif.Proofs.GenLimit
import Verif.Proofs.GenLookup
import Verif.Proofs.GenZero
import Verif.Spec.GenTable
/-!
# Sequences of operations
-/

namespace Textseg.Gen
open Textseg Spec

/-- Performing operations on a tree. -/
def runOp (t : Tree) : TableOp → Go Tree
  | .set r v => t.Set r v
  | .bitwiseOr r m => t.BitwiseOr r m

def runOps (t : Tree) : List TableOp → Go Tree
  | [] => .ok t
  | o :: os => do
    let t ← runOp t o
    runOps t os

theorem codePoint_eq (r : Rune) : (runeChar r).val.toNat = codePoint r := by
  unfold runeChar codePoint
  split
  · next h => exact charOfNat_val h.2
  · rfl

theorem recorded_snoc (ops : List TableOp) (o : TableOp) (c : Nat) :
    recorded (ops ++ [o]) c = if codePoint o.rune = c then o.effect (recorded ops c) else recorded ops c := by
  unfold recorded
  rw [List.filter_append, List.foldl_append]
  by_cases h : codePoint o.rune = c
  · simp [h]
  · simp [h]

theorem runOps_append (t : Tree) (a b : List TableOp) : runOps t (a ++ b) = (runOps t a >>= fun t => runOps t b) := by
  induction a generalizing t with
  | nil => rfl
  | cons o a ih =>
    simp only [List.cons_append, runOps, bind, Except.bind]
    cases runOp t o with
    | error e => rfl
    | ok t' => exact ih t'

/-- The tree after operations. -/
structure OpsInv (ops : List TableOp) (t : Tree) (IB : List (List Nat)) (PB : List Nat) : Prop where
  inv : Inv t IB PB (recorded ops)
  sub : ∀ k ∈ PB, k < 2 ∨ ∃ o ∈ ops, codePoint o.rune / 64 = k
  sup : ∀ o ∈ ops, codePoint o.rune / 64 ∈ PB

theorem opsInv_nil : OpsInv [] newTree [[]] [0, 1] where
  inv := inv_new
  sub := by intro k hk; left; simp at hk; omega
  sup := by simp

theorem conflict_snoc {ops : List TableOp} {o : TableOp} (h : Conflict (ops ++ [o])) :
    Conflict ops ∨ ∃ r, o = .set r 4 ∧ recorded ops (codePoint r) ≠ 0 := by
  obtain ⟨pre, r, post, e, h⟩ := h
  rcases List.eq_nil_or_concat post with rfl | ⟨post', o', rfl⟩
  · right
    obtain ⟨e1, e2⟩ := List.append_inj' e rfl
    simp at e2
    subst e1
    exact ⟨r, e2, h⟩
  · left
    have e' : ops ++ [o] = (pre ++ TableOp.set r 4 :: post') ++ [o'] := by rw [e]; simp
    obtain ⟨e1, _⟩ := List.append_inj' e' rfl
    exact ⟨pre, r, post', e1, h⟩

theorem conflict_append {ops : List TableOp} (o : List TableOp) (h : Conflict ops) : Conflict (ops ++ o) := by
  obtain ⟨pre, r, post, e, h⟩ := h
  exact ⟨pre, r, post ++ o, by rw [e]; simp, h⟩

theorem grows_sub {ops : List TableOp} {o : TableOp} {PB PB' : List Nat} (hs : ∀ k ∈ PB, k < 2 ∨ ∃ o ∈ ops, codePoint o.rune / 64 = k)
    (hp : ∀ o ∈ ops, codePoint o.rune / 64 ∈ PB) (h : Grows PB PB' (runeChar o.rune)) :
    (∀ k ∈ PB', k < 2 ∨ ∃ o' ∈ ops ++ [o], codePoint o'.rune / 64 = k) ∧ ∀ o' ∈ ops ++ [o], codePoint o'.rune / 64 ∈ PB' := by
  obtain ⟨h1, h2⟩ := h
  rw [codePoint_eq] at h1 h2
  have hsub : ∀ k ∈ PB, k < 2 ∨ ∃ o' ∈ ops ++ [o], codePoint o'.rune / 64 = k := by
    intro k hk
    rcases hs k hk with h | ⟨o', h, e⟩
    · exact .inl h
    · exact .inr ⟨o', List.mem_append_left _ h, e⟩
  constructor
  · rcases h1 with h1 | h1 <;> subst h1
    · exact hsub
    · intro k hk
      rcases List.mem_append.mp hk with hk | hk
      · exact hsub k hk
      · simp only [List.mem_singleton] at hk
        exact .inr ⟨o, by simp, hk.symm⟩
  · intro o' ho
    rcases List.mem_append.mp ho with ho | ho
    · have := hp o' ho
      rcases h1 with h1 | h1 <;> rw [h1]
      · exact this
      · exact List.mem_append_left _ this
    · simp only [List.mem_singleton] at ho
      subst ho
      exact h2

theorem runOp_spec {ops t IB PB} (h : OpsInv ops t IB PB) (o : TableOp) :
    (Conflict (ops ++ [o]) ∧ runOp t o = .error (.explicit "conflicting properties")) ∨
    ((¬ ∃ r, o = .set r 4 ∧ recorded ops (codePoint r) ≠ 0) ∧ ∃ t' IB' PB', runOp t o = .ok t' ∧ OpsInv (ops ++ [o]) t' IB' PB') := by
  cases o with
  | set r v =>
    rcases set_spec h.inv r v with ⟨h1, h2, h3⟩ | ⟨h1, t', IB', PB', h2, h3, h4⟩
    · left
      rw [codePoint_eq] at h2
      exact ⟨⟨ops, r, [], by rw [h1], h2⟩, h3⟩
    · right
      refine ⟨?_, t', IB', PB', h2, ?_⟩
      · rintro ⟨r', e, hne⟩
        simp only [TableOp.set.injEq] at e
        obtain ⟨e1, e2⟩ := e
        subst e1
        apply h1
        rw [codePoint_eq]
        exact ⟨e2, hne⟩
      · obtain ⟨g1, g2⟩ := grows_sub (o := .set r v) h.sub h.sup h4
        refine ⟨?_, g1, g2⟩
        have e : recorded (ops ++ [.set r v]) = fun c => if c = (runeChar r).val.toNat then v else recorded ops c := by
          funext c
          rw [recorded_snoc, codePoint_eq]
          simp only [TableOp.rune, TableOp.effect, eq_comm]
        rw [e]
        exact h3
  | bitwiseOr r v =>
    right
    obtain ⟨t', IB', PB', h2, h3, h4⟩ := or_spec h.inv r v
    refine ⟨by simp, t', IB', PB', h2, ?_⟩
    obtain ⟨g1, g2⟩ := grows_sub (o := .bitwiseOr r v) h.sub h.sup h4
    refine ⟨?_, g1, g2⟩
    have e : recorded (ops ++ [.bitwiseOr r v]) = fun c => if c = (runeChar r).val.toNat then recorded ops c ||| v else recorded ops c := by
      funext c
      rw [recorded_snoc, codePoint_eq]
      simp only [TableOp.rune, TableOp.effect, eq_comm]
    rw [e]
    exact h3

theorem runOps_spec (os : List TableOp) : ∀ {ops t IB PB} (_ : OpsInv ops t IB PB) (_ : ¬ Conflict ops),
    (Conflict (ops ++ os) ∧ runOps t os = .error (.explicit "conflicting properties")) ∨
    (¬ Conflict (ops ++ os) ∧ ∃ t' IB' PB', runOps t os = .ok t' ∧ OpsInv (ops ++ os) t' IB' PB') := by
  induction os with
  | nil =>
    intro ops t IB PB h hc
    right
    rw [List.append_nil]
    exact ⟨hc, t, IB, PB, rfl, h⟩
  | cons o os ih =>
    intro ops t IB PB h hc
    have e : ops ++ o :: os = (ops ++ [o]) ++ os := by simp
    rcases runOp_spec h o with ⟨h1, h2⟩ | ⟨h1, t', IB', PB', h2, h3⟩
    · left
      rw [e]
      refine ⟨conflict_append _ h1, ?_⟩
      simp only [runOps, bind, Except.bind, h2]
    · have hc' : ¬ Conflict (ops ++ [o]) := by
        intro hh
        rcases conflict_snoc hh with hh | hh
        · exact hc hh
        · exact h1 hh
      have := ih h3 hc'
      simp only [runOps, bind, Except.bind, h2]
      rw [e]
      exact this

theorem runOps_new (ops : List TableOp) :
    (Conflict ops ∧ runOps newTree ops = .error (.explicit "conflicting properties")) ∨
    (¬ Conflict ops ∧ ∃ t IB PB, runOps newTree ops = .ok t ∧ OpsInv ops t IB PB) := by
  have := runOps_spec ops opsInv_nil (by rintro ⟨a, r, b, e, _⟩; simp at e)
  simpa using this

theorem runOps_ok {ops t} (h : runOps newTree ops = .ok t) : ∃ IB PB, OpsInv ops t IB PB := by
  rcases runOps_new ops with ⟨_, h1⟩ | ⟨_, t', IB, PB, h1, h2⟩
  · rw [h1] at h; exact absurd h (by simp)
  · rw [h1] at h
    simp only [Except.ok.injEq] at h
    subst h
    exact ⟨IB, PB, h2⟩

theorem blocks_iff {ops t IB PB} (h : OpsInv ops t IB PB) : PB.length ≤ 1023 ↔ AtMostBlocks ops 1021 := by
  constructor
  · intro hP
    refine ⟨PB.drop 2, by rw [List.length_drop]; omega, ?_⟩
    intro o ho h128
    apply mem_drop_of_ne (h.sup o ho)
    intro i hi hh
    have := (h.inv.two_le hh).mpr (by omega)
    omega
  · rintro ⟨l, h1, h2⟩
    have : PB.length ≤ (0 :: 1 :: l).length := by
      apply h.inv.nodupP.length_le_of_subset
      intro k hk
      by_cases hk2 : k < 2
      · have : k = 0 ∨ k = 1 := by omega
        rcases this with e | e <;> simp [e]
      · rcases h.sub k hk with h3 | ⟨o, ho, e⟩
        · exact absurd h3 hk2
        · have := h2 o ho (by omega)
          rw [e] at this
          exact List.mem_cons_of_mem _ (List.mem_cons_of_mem _ this)
    simp only [List.length_cons] at this
    omega

theorem blockF_eq_iff (F : Nat → UInt8) (a b : Nat) : blockF F a = blockF F b ↔ ∀ j, j < 64 → F (64 * a + j) = F (64 * b + j) := by
  unfold blockF
  constructor
  · intro h j hj
    have := congrArg (·[j]?) h
    simpa [hj] using this
  · intro h
    apply List.map_congr_left
    intro j hj
    exact h j (List.mem_range.mp hj)

theorem blockF_zero_iff (F : Nat → UInt8) (a : Nat) : blockF F a = List.replicate 64 0 ↔ ∀ j, j < 64 → F (64 * a + j) = 0 := by
  unfold blockF
  constructor
  · intro h j hj
    have := congrArg (·[j]?) h
    simp only [List.getElem?_map, List.getElem?_range hj, List.getElem?_replicate, hj, if_true, Option.map_some, Option.some.injEq] at this
    exact this
  · intro h
    apply List.ext_getElem?
    intro j
    by_cases hj : j < 64
    · simp only [List.getElem?_map, List.getElem?_range hj, List.getElem?_replicate, hj, if_true, Option.map_some, h j hj]
    · rw [List.getElem?_eq_none (by simp; omega), List.getElem?_eq_none (by simp; omega)]

theorem clash_iff (ops : List TableOp) : AsciiClash ops ↔
    (blockF (recorded ops) 0 ≠ blockF (recorded ops) 1 ∧
      ∃ a d, a < 16 ∧ d < 64 ∧ leafF (recorded ops) [32 + a, d] = blockF (recorded ops) 0) := by
  unfold AsciiClash SameBlock
  rw [Ne, blockF_eq_iff]
  apply and_congr_right
  intro _
  constructor
  · rintro (h | ⟨k, h1, h2, h3⟩)
    · refine ⟨0, 0, by omega, by omega, ?_⟩
      rw [(blockF_zero_iff _ 0).mpr (by simpa using h)]
      rfl
    · refine ⟨k / 64, k % 64, by omega, by omega, ?_⟩
      have : kOf [32 + k / 64, k % 64] = some k := by
        rcases pathOf_cases k with ⟨_, e⟩ | ⟨_, _, e⟩ | ⟨_, e⟩
        · omega
        · rw [← e]; exact kOf_pathOf (by omega) (by omega)
        · omega
      unfold leafF
      rw [this]
      exact (blockF_eq_iff _ _ _).mpr h3
  · rintro ⟨a, d, ha, hd, h⟩
    unfold leafF at h
    cases hk : kOf [32 + a, d] with
    | none =>
      rw [hk] at h
      left
      intro j hj
      have := (blockF_zero_iff _ 0).mp h.symm j hj
      simpa using this
    | some k =>
      rw [hk] at h
      right
      obtain ⟨h2, hlt, e⟩ := kOf_some hk
      refine ⟨k, ?_, ?_, (blockF_eq_iff _ _ _).mp h⟩
      · rcases pathOf_cases k with ⟨_, e'⟩ | ⟨_, _, e'⟩ | ⟨_, e'⟩ <;> rw [e'] at e <;> simp at e <;> omega
      · rcases pathOf_cases k with ⟨_, e'⟩ | ⟨_, _, e'⟩ | ⟨_, e'⟩ <;> rw [e'] at e <;> simp at e <;> omega

theorem compact_iff {ops t IB PB} (h : OpsInv ops t IB PB) :
    (∃ raw, t.Compact = .ok raw) ↔ (AtMostBlocks ops 1021 ∧ ¬ AsciiClash ops) := by
  rw [clash_iff, ← zero_iff h.inv, ← blocks_iff h]
  by_cases hP : PB.length ≤ 1023
  · rw [Compact_eq h.inv hP]
    split
    · next hz => simp [hz]
    · next hz => simp [hz, hP]
  · obtain ⟨e, he⟩ := Compact_fails h.inv (by omega)
    simp [he, hP]

theorem compact_ok {ops t IB PB raw} (h : OpsInv ops t IB PB) (hc : t.Compact = .ok raw) : PB.length ≤ 1023 ∧
    raw = { Indices := (cfinal (recorded ops) (t.indices.length * 4)).indices,
            Properties := (cfinal (recorded ops) (t.indices.length * 4)).props } := by
  by_cases hP : PB.length ≤ 1023
  · refine ⟨hP, ?_⟩
    rw [Compact_eq h.inv hP] at hc
    split at hc
    · exact absurd hc (by simp)
    · simp only [Except.ok.injEq] at hc
      exact hc.symm
  · obtain ⟨e, he⟩ := Compact_fails h.inv (by omega)
    rw [he] at hc
    exact absurd hc (by simp)

theorem compact_final {ops t IB PB raw} (h : OpsInv ops t IB PB) (hc : t.Compact = .ok raw) :
    ∃ st : CState, Final (recorded ops) st ∧ raw = RawPropertyTree.mk st.indices st.props ∧
      st.indices.length ≤ t.indices.length * 4 := by
  obtain ⟨_, e⟩ := compact_ok h hc
  obtain ⟨_, h2⟩ := cfinal_size h.inv (t.indices.length * 4)
  have hi1 := (List.getElem?_eq_some_iff.mp h.inv.head).1
  have hlenI := h.inv.lenI
  exact ⟨_, final_of_inv h.inv, e, by omega⟩

theorem refers_of_reads {L : List Nat → List UInt8} (hL : ∀ p, (L p).length = 64) {props indices} : ∀ {n v p},
    Reads L props indices n v p → Refers indices props n v := by
  intro n
  induction n with
  | zero =>
    intro v p h
    have := congrArg List.length h
    rw [hL] at this
    unfold slice at this
    rw [List.length_take, List.length_drop] at this
    show 64 * v + 64 ≤ props.length
    omega
  | succ n ih =>
    intro v p h d hd
    obtain ⟨w, h1, h2⟩ := h d hd
    exact ⟨w, h1, ih h2⟩

end Textseg.Gen
