import Verif.Proofs.MemUcd3
import Verif.Proofs.TestDataParse
/-!
# Slices that are appended to, and `bytes.Split`
-/

namespace Textseg.GoMem
open Textseg.GoLang (TyId tyInt tyU8 Halt importName wrap)
set_option linter.unusedSimpArgs false

/-- The slice is not in the array at this address. -/
def Off (o : Option Sl) (b : Nat) : Prop := ∀ s, o = some s → s.a ≠ b

/-- The contents of a slice that is only made by appending to nil. -/
def Grown (h : Heap) : Option Sl → List Val → Prop
  | none, vs => vs = []
  | some s, vs => ∃ cap tl, s = ⟨s.a, 0, vs.length, cap⟩ ∧ h[s.a]? = some (.arr (vs ++ tl)) ∧ vs.length ≤ cap ∧ vs ≠ []

theorem Grown.keep {h h' : Heap} {o : Option Sl} {vs : List Val} (g : Grown h o vs) (hk : ∀ s, o = some s → h'[s.a]? = h[s.a]?) : Grown h' o vs := by
  cases o with
  | none => exact g
  | some s => obtain ⟨cap, tl, h1, h2, h3⟩ := g; exact ⟨cap, tl, h1, by rw [hk s rfl]; exact h2, h3⟩

theorem Grown.lt {h : Heap} {o : Option Sl} {vs : List Val} (g : Grown h o vs) (s : Sl) (hs : o = some s) : s.a < h.length := by
  subst hs; obtain ⟨cap, tl, h1, h2, h3⟩ := g; exact lt_of_some h2

theorem Grown.read {h : Heap} {o : Option Sl} {vs : List Val} (g : Grown h o vs) : GoMem.readSlice o h = .ok (vs, h) := by
  cases o with
  | none => cases g; rfl
  | some s =>
    obtain ⟨cap, tl, h1, h2, h3⟩ := g
    rw [readSlice_some h2, h1]
    simp only [List.drop_zero, List.take_left']

theorem Grown.bytes {h : Heap} {o : Option Sl} {bs : List UInt8} (g : Grown h o (bs.map (.u8 tyU8))) : BytesAt h o bs := by
  cases o with
  | none => exact List.map_eq_nil_iff.mp g
  | some s =>
    obtain ⟨cap, tl, h1, h2, h3⟩ := g
    refine ⟨_, h2, ?_, ?_⟩
    · rw [h1]; simp only [List.drop_zero, List.take_left']
    · rw [h1]; simp

/-- What appending to a slice does to the memory. -/
structure Appended (h h' : Heap) (o o' : Option Sl) : Prop where
  len : h.length ≤ h'.length
  keep : ∀ b, b < h.length → Off o b → h'[b]? = h[b]?
  addr : ∀ s', o' = some s' → (∃ s, o = some s ∧ s.a = s'.a) ∨ h.length ≤ s'.a

theorem append_grown (m : Machine) (e : GTy) (z : Val) (hz : ∀ h, zeroValue e h = .ok (z, h)) {h : Heap} {o : Option Sl} {vs xs : List Val}
    (g : Grown h o vs) (hx : xs ≠ []) :
    ∃ o' h', appendSlice m e o xs h = .ok (o', h') ∧ Grown h' o' (vs ++ xs) ∧ Appended h h' o o' := by
  cases o with
  | none =>
    cases g
    have he : xs.isEmpty = false := by cases xs with | nil => exact absurd rfl hx | cons x xs => rfl
    have hl : ¬ 0 + xs.length ≤ 0 := by cases xs with | nil => exact absurd rfl hx | cons x xs => simp
    let cap := max (0 + xs.length) (m.grow 0 (0 + xs.length))
    refine ⟨some ⟨h.length, 0, 0 + xs.length, cap⟩, h ++ [.arr ([] ++ xs ++ List.replicate (cap - (0 + xs.length)) z)], ?_,
      ⟨cap, _, by simp, push_new, ?_, by simpa using hx⟩, ⟨by simp, fun b hb _ => push_old hb, fun s' hs' => by cases hs'; exact .inr (Nat.le_refl _)⟩⟩
    · simp only [appendSlice, he, Bool.false_eq_true, if_false, Option.getD_none]
      rw [if_neg hl]
      simp only [readSlice, bind_apply, pure_apply, bindR_ok, hz, alloc_apply]
      rfl
    · simp only [List.nil_append, cap, Nat.zero_add]; exact Nat.le_max_left _ _
  | some s =>
    obtain ⟨cap, tl, h1, h2, h3, h4⟩ := g
    obtain ⟨h', a', cap', tl', e1, e2, e3, e4, e5, e6⟩ := appendSlice_spec m e z hz h2 h3 hx
    rw [← h1] at e1
    refine ⟨_, h', e1, ⟨cap', tl', by simp, e2, by simp; omega, by simp [h4]⟩, ⟨e4, fun b hb ho => e5 b hb ?_, fun s' hs' => ?_⟩⟩
    · have := ho s rfl
      rcases e6 with ⟨_, rfl, _⟩ | ⟨_, rfl⟩
      · exact Ne.symm this
      · omega
    · cases hs'
      rcases e6 with ⟨_, rfl, _⟩ | ⟨_, rfl⟩
      · exact .inl ⟨s, rfl, rfl⟩
      · exact .inr (Nat.le_refl _)

theorem Appended.off {h h' : Heap} {o o' : Option Sl} (hA : Appended h h' o o') {b : Nat} (hb : b < h.length) (ho : Off o b) : Off o' b := by
  intro s' hs'
  rcases hA.addr s' hs' with ⟨s, hs, e⟩ | hl
  · rw [← e]; exact ho s hs
  · omega

/-- From position `i` on, the elements `vs` of a slice are parts of the array at address `A` with these contents. -/
def Pieces (h : Heap) (A : Nat) (vs : List Val) (i : Nat) (ps : List (List UInt8)) : Prop :=
  ∀ j p, ps[j]? = some p → ∃ s, vs[i + j]? = some (.slice noName tB (some s)) ∧ s.a = A ∧ BytesAt h (some s) p

theorem Pieces.keep {h h' : Heap} {A : Nat} {vs : List Val} {i : Nat} {ps : List (List UInt8)} (hp : Pieces h A vs i ps) (hk : h'[A]? = h[A]?) :
    Pieces h' A vs i ps := by
  intro j p hj
  obtain ⟨s, h1, h2, h3⟩ := hp j p hj
  exact ⟨s, h1, h2, h3.keep fun s' hs' => by cases hs'; rw [h2]; exact hk⟩

theorem Pieces.tail {h : Heap} {A : Nat} {vs : List Val} {i : Nat} {p : List UInt8} {ps : List (List UInt8)} (hp : Pieces h A vs i (p :: ps)) :
    Pieces h A vs (i + 1) ps := by
  intro j q hj
  obtain ⟨s, h1, h2, h3⟩ := hp (j + 1) q (by simpa using hj)
  exact ⟨s, by rw [← h1]; congr 1; omega, h2, h3⟩

theorem pieces_length (e : GTy) (s : Sl) (n : Nat) : ∀ ks i, (pieces e s n i ks).length = ks.length
  | [], _ => rfl
  | _ :: ks, i => by simp [pieces, pieces_length e s n ks]

/-- The pieces that `bytes.Split` returns. -/
theorem pieces_spec {h : Heap} {s : Sl} {bs sp : List UInt8} (hb : BytesAt h (some s) bs) : ∀ (fuel i : Nat) (ps : List (List UInt8)), i ≤ bs.length →
    bytesSplitLoop sp fuel (bs.drop i) = .ok ps → Pieces h s.a (pieces tB s sp.length i (ps.map (·.length))) 0 ps := by
  intro fuel
  induction fuel with
  | zero => intro i ps _ h; cases h
  | succ fuel ih =>
    intro i ps hi hs
    rw [bytesSplitLoop, bytesCut] at hs
    have h0 : ∀ (n : Nat) (c : Nat), i + n ≤ bs.length → BytesAt h (some ⟨s.a, s.off + i, n, c⟩) ((bs.drop i).take n) := by
      intro n c hn
      obtain ⟨l, k1, k2, k3⟩ := hb.sub i n hn
      exact ⟨l, k1, k2, k3⟩
    rcases hx : bytesIndex sp (bs.drop i) with _ | k
    · rw [hx] at hs
      cases hs
      intro j p hj
      cases j with
      | zero =>
        cases hj
        refine ⟨_, rfl, rfl, ?_⟩
        have := h0 (bs.drop i).length (s.cap - i) (by rw [List.length_drop]; omega)
        rw [List.take_of_length_le (Nat.le_refl _)] at this
        exact this
      | succ j => simp at hj
    · rw [hx] at hs
      have hk := bytesIndex_le hx
      rw [List.length_drop] at hk
      simp only [] at hs
      rcases hr : bytesSplitLoop sp fuel ((bs.drop i).drop (k + sp.length)) with q | rest
      · rw [hr] at hs; cases hs
      · rw [hr] at hs
        cases hs
        rw [List.drop_drop] at hr
        have hlen : ((bs.drop i).take k).length = k := by rw [List.length_take, List.length_drop]; omega
        have := ih (i + (k + sp.length)) rest (by omega) hr
        intro j p hj
        cases j with
        | zero =>
          cases hj
          refine ⟨_, rfl, rfl, ?_⟩
          simp only [hlen]
          exact h0 k _ (by omega)
        | succ j =>
          obtain ⟨s', k1, k2, k3⟩ := this j p (by simpa using hj)
          refine ⟨s', ?_, k2, k3⟩
          rw [← k1, show 0 + (j + 1) = j + 1 by omega, show 0 + j = j by omega]
          simp only [List.map_cons, pieces, hlen, List.getElem?_cons_succ, Nat.add_assoc]

/-- `bytes.Split` -/
theorem splitOf_spec {h : Heap} {s : Sl} {sep : Option Sl} {bs sp : List UInt8} {ps : List (List UInt8)} (hb : BytesAt h (some s) bs) (hs : BytesAt h sep sp)
    (hne : sp ≠ []) (hp : bytesSplit bs sp = .ok ps) :
    ∃ vs, splitOf tB (some s) sep h = .ok ([.slice noName (.slice noName tB) (some ⟨h.length, 0, ps.length, ps.length⟩)], h ++ [.arr vs]) ∧
      Pieces h s.a vs 0 ps ∧ vs.length = ps.length := by
  have he : sp.isEmpty = false := by cases sp with | nil => exact absurd rfl hne | cons x xs => rfl
  have hl : (pieces tB s sp.length 0 (ps.map (·.length))).length = ps.length := by rw [pieces_length, List.length_map]
  refine ⟨pieces tB s sp.length 0 (ps.map (·.length)), ?_, ?_, hl⟩
  · simp only [splitOf, bind_apply, hb.read, hs.read, bindR_ok, hp, he, Option.getD_some, alloc_apply, pure_apply, hl]
  · exact pieces_spec hb _ 0 ps (by omega) hp

end Textseg.GoMem
