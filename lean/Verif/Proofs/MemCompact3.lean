import Verif.Proofs.MemCompact2
import Verif.Proofs.MemOps
import Verif.Proofs.GenOps
import Verif.Spec.GenSource
/-!
# `Compact`, and whole sequences of calls
-/
namespace Textseg.GoMem
open Textseg.GoLang (TyId tyInt tyU8 Halt importName wrap)
set_option linter.unusedSimpArgs false

/-- A value of the type `RawPropertyTree` with these contents. -/
abbrev RawIs (h : Heap) (v : Val) (raw : Gen.RawPropertyTree) : Prop := Spec.IsRaw h v raw.Indices raw.Properties

theorem Compact_spec (m : Machine) (hW : 32 ≤ m.W) (L e : Nat) (p : Nat) (h : Heap) (x : Loc) (t : Gen.Tree) (ht : TreeAt h p x t)
    (hP : 128 ≤ t.rawProps.length) (hI : 64 ≤ t.indices.length) (hI' : t.indices.length < 900000)
    (hok : ∀ i v n, i < 64 → t.indices[i]? = some v → Gen.rootLevels i = .ok n → OKSrc t n v) :
    match t.Compact with
    | .ok raw => ∃ v h', R m L (e + 7) (.method (.ptr tTree p) (name! "Compact") []) h = .ok ([v], h') ∧ RawIs h' v raw ∧
        (∀ (a : Nat) (t : TyId) (fs : List (Nat × Val)), h[a]? = some (Obj.struct t fs) → h'[a]? = some (Obj.struct t fs))
    | .error _ => ∃ er, R m L (e + 7) (.method (.ptr tTree p) (name! "Compact") []) h = .error (.panic er) := by
  obtain ⟨hF, q, y, props, hh, htF, cF, hq0, hkF⟩ := compactHead m hW L (e + 3) p h x t ht hP hI hI'
  have hl : (t.indices.take 64).length = 64 := by rw [List.length_take]; omega
  have hloop := rootLoop_spec m hW L e t p q x (t.indices.length * 4) props y (t.indices.take 64) 0 hF y (startC t) htF cF rfl rfl rfl (by omega) (by
    intro k w hk
    have hk64 : k < 64 := by have := lt_of_some hk; omega
    rw [List.getElem?_take, if_pos hk64] at hk
    rw [Nat.zero_add]
    exact ⟨hk, fun n hn => hok k w n hk64 hk hn⟩)
  rw [hl] at hloop
  have hm : t.Compact = (Gen.rootLoop t 0 (t.indices.take 64) (startC t)) >>= fun st =>
      if (0 : UInt16) ∈ st.indices then .error (.explicit "index entry is zero, which is invalid")
      else .ok { Indices := st.indices, Properties := st.props } := by
    have l0 : (t.rawProps.take 64).length = 64 := by rw [List.length_take]; omega
    have l1 : ((t.rawProps.take 128).drop 64).length = 64 := by rw [List.length_drop, List.length_take]; omega
    have e1 : (t.rawProps.take 128).drop 64 = (t.rawProps.drop 64).take 64 := by rw [List.take_drop]
    rw [e1] at l1
    simp only [Gen.Tree.Compact, goSliceTo, Gen.goSlice, Gen.propertyBlockKey, bind, Except.bind]
    rw [if_pos (by omega), if_pos (by omega), if_pos (by omega), if_pos (by omega)]
    simp only [l0, l1, ne_eq, not_true, if_false, e1]
    rfl
  rw [hm, hh]
  rcases hr : Gen.rootLoop t 0 (t.indices.take 64) (startC t) with er | st
  · rw [hr] at hloop
    obtain ⟨er', hloop⟩ := hloop
    refine ⟨er', ?_⟩
    exact congrArg (compactRest m L (e + 3)) hloop
  · rw [hr] at hloop
    obtain ⟨h', y', hloop, ht', c', hks⟩ := hloop
    have htail := compactTail m hW L (e + 2) p q x y y' (t.indices.length * 4) props h' st c'
    have hq := congrArg (compactRest m L (e + 3)) hloop
    simp only [bind, Except.bind]
    by_cases h0 : (0 : UInt16) ∈ st.indices
    · rw [if_pos h0] at htail ⊢
      obtain ⟨er, htail⟩ := htail
      exact ⟨er, hq.trans htail⟩
    · rw [if_neg h0] at htail ⊢
      refine ⟨_, h', hq.trans htail, ⟨_, _, rfl, ?_, ?_, ⟨rfl, c'.capI⟩, ⟨rfl, c'.capP⟩⟩, fun a t fs ha => hks a t fs (by have := lt_of_some ha; omega) (by rw [hkF a (lt_of_some ha)]; exact ha)⟩
      · rw [readSlice_some c'.inds]
        simp
      · rw [readSlice_some c'.props]
        simp

open Textseg.Gen Textseg.Spec in
theorem okSrc_of_inv {t IB PB F} (h : Inv t IB PB F) : ∀ (n : Nat) (v : UInt16) (p : List Nat) (_ : LevelOK n p) (_ : SlotOK IB PB p v.toNat),
    OKSrc t n v := by
  intro n
  induction n with
  | zero =>
    intro v p hl hs
    by_cases h0 : v.toNat = 0
    · exact .inl (u16_toNat_zero.mpr h0)
    · rcases hs with ⟨h1, _⟩ | h1 | ⟨k, h2, h1, e⟩
      · exact absurd h1 h0
      · exact absurd (h.prefixI _ (List.mem_of_getElem? h1)) hl.not_strict
      · have hil := (List.getElem?_eq_some_iff.mp h1).1
        right
        rw [h.lenP]; omega
  | succ n ih =>
    intro v p hl hs
    by_cases h0 : v.toNat = 0
    · exact .inl (u16_toNat_zero.mpr h0)
    · rcases hs with ⟨h1, _⟩ | h1 | ⟨k, h2, h1, e⟩
      · exact absurd h1 h0
      · have hil := (List.getElem?_eq_some_iff.mp h1).1
        have hlen := h.lengthI
        right
        refine ⟨by omega, by rw [h.lenI]; omega, fun w hw => ?_⟩
        obtain ⟨d, hd⟩ := List.getElem?_of_mem hw
        rw [List.getElem?_take] at hd
        split at hd
        · rw [List.getElem?_drop] at hd
          obtain ⟨w', hw', hs'⟩ := h.slots _ _ d h1 (by omega)
          rw [hd] at hw'
          simp only [Option.some.injEq] at hw'
          subst hw'
          exact ih w _ (hl.child d) hs'
        · exact absurd hd (by simp)
      · exact absurd e (hl.not_path (h.rangeP _ (List.mem_of_getElem? h1)))

open Textseg.Gen Textseg.Spec in
theorem okSrc_root {t IB PB F} (h : Inv t IB PB F) (i : Nat) (v : UInt16) (n : Nat) (hi : i < 64) (hv : t.indices[i]? = some v)
    (hn : Gen.rootLevels i = .ok n) : OKSrc t n v := by
  obtain ⟨w, hw, hs⟩ := h.slots 0 [] i h.head hi
  rw [Nat.mul_zero, Nat.zero_add, hv] at hw
  simp only [Option.some.injEq] at hw
  subst hw
  have e : n = lev i := by
    have : ∀ i : Fin 64, Gen.rootLevels i.val = .ok (lev i.val) := by decide
    have := this ⟨i, hi⟩
    simp only [hn, Except.ok.injEq] at this
    exact this
  subst e
  exact okSrc_of_inv h _ _ _ (levelOK_root i) hs

open Textseg.Gen Textseg.Spec in
theorem op_spec (m : Machine) (hW : 32 ≤ m.W) (L d : Nat) (p : Nat) (o : TableOp) (h : Heap) (x : Loc) (t : Tree)
    (ht : TreeAt h p x t) (hI : t.indices.length < 900000) (hP : t.rawProps.length < 2000000) :
    match runOp t o with
    | .ok t' => ∃ h' x', R m L (d + 5) (opCall (.ptr tTree p) o) h = .ok ([], h') ∧ TreeAt h' p x' t' ∧ Moves p h x h' x'
    | .error _ => ∃ e, R m L (d + 5) (opCall (.ptr tTree p) o) h = .error (.panic e) := by
  cases o with
  | set r v =>
    have := Set_spec m hW L d p r v h x t ht hI hP
    simp only [runOp]
    rcases hr : t.Set r v with er | t'
    · rw [hr] at this; exact this
    · rw [hr] at this
      exact this
  | bitwiseOr r v =>
    have := BitwiseOr_spec m hW L d p r v h x t ht hI hP
    simp only [runOp]
    rcases hr : t.BitwiseOr r v with er | t'
    · rw [hr] at this; exact this
    · rw [hr] at this
      exact this

open Textseg.Gen Textseg.Spec in
theorem opsSession_spec (m : Machine) (hW : 32 ≤ m.W) (L d : Nat) (p : Nat) (os : List TableOp) : ∀ (ops : List TableOp) (h : Heap) (x : Loc) (t : Tree) (IB PB)
    (_ : TreeAt h p x t) (_ : OpsInv ops t IB PB),
    match runOps t os with
    | .ok t' => ∃ h' x' IB' PB', opCalls (R m L (d + 5)) (.ptr tTree p) os h = .ok ((), h') ∧ TreeAt h' p x' t' ∧ OpsInv (ops ++ os) t' IB' PB'
    | .error _ => ∃ e, opCalls (R m L (d + 5)) (.ptr tTree p) os h = .error (.panic e) := by
  induction os with
  | nil =>
    intro ops h x t IB PB ht hv
    exact ⟨h, x, IB, PB, rfl, ht, by rw [List.append_nil]; exact hv⟩
  | cons o os ih =>
    intro ops h x t IB PB ht hv
    have l1 := hv.inv.lengthI
    have l2 := hv.inv.lengthP
    have hs := op_spec m hW L d p o h x t ht (by rw [hv.inv.lenI]; omega) (by rw [hv.inv.lenP]; omega)
    rcases runOp_spec hv o with ⟨_, h2⟩ | ⟨_, t', IB', PB', h2, h3⟩
    · rw [h2] at hs
      obtain ⟨e, hs⟩ := hs
      simp only [runOps, bind, Except.bind, h2]
      exact ⟨e, by rw [opCalls]; simp only [bind, M.bind, bindR, hs]⟩
    · rw [h2] at hs
      obtain ⟨h', x', hs, ht', _⟩ := hs
      have := ih (ops ++ [o]) h' x' t' IB' PB' ht' h3
      rw [List.append_assoc] at this
      simp only [runOps, bind, Except.bind, h2, opCalls, M.bind, bindR, hs]
      exact this

open Textseg.Gen Textseg.Spec in
/-- The whole session. -/
theorem session_spec (m : Machine) (hW : 32 ≤ m.W) (L d : Nat) (ops : List TableOp) :
    match (runOps newTree ops >>= fun t => t.Compact) with
    | .ok raw => ∃ v h, session gentable m L (d + 7) ops [] = .ok ([v], h) ∧ IsRaw h v raw.Indices raw.Properties
    | .error _ => ∃ p, session gentable m L (d + 7) ops [] = .error (.panic p) := by
  have e0 : session gentable m L (d + 7) ops [] = M.bind (opCalls (R m L (d + 7)) (.ptr tTree 9) ops)
      (fun _ => R m L (d + 7) (.method (.ptr tTree 9) (name! "Compact") [])) newHeap := by
    unfold session
    simp only [bind, M.bind, init_gentable m L (d + 5)]
    have := newTree_spec m hW L (d + 4)
    rw [R] at this
    simp only [this, single, pure, M.pure]
    rfl
  have h1 := opsSession_spec m hW L (d + 2) 9 ops [] newHeap newLoc newTree _ _ newTree_at opsInv_nil
  rw [e0]
  rcases hr : runOps newTree ops with er | t
  · rw [hr] at h1
    obtain ⟨e, h1⟩ := h1
    simp only [bind, Except.bind, M.bind, h1]
    exact ⟨e, rfl⟩
  · rw [hr] at h1
    obtain ⟨h', x', IB, PB, h1, ht, hv⟩ := h1
    simp only [bind, Except.bind, M.bind, h1]
    have l1 := hv.inv.lengthI
    have l0 := lt_of_some hv.inv.head
    have l2 := lt_of_some hv.inv.ascii1
    have hc := Compact_spec m hW L d 9 h' x' t ht (by rw [hv.inv.lenP]; omega) (by rw [hv.inv.lenI]; omega) (by rw [hv.inv.lenI]; omega)
      (fun i v n hi hv' hn => okSrc_root hv.inv i v n hi hv' hn)
    rcases hr : t.Compact with er | raw
    · rw [hr] at hc
      exact hc
    · rw [hr] at hc
      obtain ⟨v, h2, e1, e2, _⟩ := hc
      exact ⟨v, h2, e1, e2⟩

end Textseg.GoMem
