import Verif.Proofs.MemKeys
import Verif.Proofs.UCDParse
/-!
# Slices of bytes in the memory: `bytes.Cut` and `bytes.TrimSpace`
-/

namespace Textseg.GoMem
open Textseg.GoLang (TyId tyInt tyU8 Halt importName wrap)
set_option linter.unusedSimpArgs false

/-- The contents of a slice of bytes. -/
def BytesAt (h : Heap) : Option Sl → List UInt8 → Prop
  | none, bs => bs = []
  | some s, bs => ∃ l, h[s.a]? = some (.arr l) ∧ (l.drop s.off).take s.len = bs.map (.u8 tyU8) ∧ s.len = bs.length

/-- A slice is part of another, or nil. -/
def PartOf (o o' : Option Sl) : Prop := ∀ s, o = some s → ∃ s', o' = some s' ∧ s.a = s'.a

theorem PartOf.refl (o : Option Sl) : PartOf o o := fun s h => ⟨s, h, rfl⟩
theorem PartOf.none (o : Option Sl) : PartOf none o := fun s h => by cases h
theorem PartOf.trans {a b c : Option Sl} (h : PartOf a b) (h' : PartOf b c) : PartOf a c := by
  intro s hs
  obtain ⟨s', hs', e⟩ := h s hs
  obtain ⟨s'', hs'', e'⟩ := h' s' hs'
  exact ⟨s'', hs'', e.trans e'⟩

theorem BytesAt.readSlice {h : Heap} {o : Option Sl} {bs : List UInt8} (hb : BytesAt h o bs) :
    GoMem.readSlice o h = .ok (bs.map (.u8 tyU8), h) := by
  cases o with
  | none => cases hb; rfl
  | some s => obtain ⟨l, h1, h2, h3⟩ := hb; rw [readSlice_some h1, h2]

theorem BytesAt.read {h : Heap} {o : Option Sl} {bs : List UInt8} (hb : BytesAt h o bs) : readBytes o h = .ok (bs, h) := by
  simp only [readBytes, bind_apply, hb.readSlice, bindR_ok, bytesOf_map]; rfl

theorem BytesAt.sub {h : Heap} {s : Sl} {bs : List UInt8} (hb : BytesAt h (some s) bs) (i n : Nat) (hn : i + n ≤ bs.length) :
    BytesAt h (some (subSlice s i n)) ((bs.drop i).take n) := by
  obtain ⟨l, h1, h2, h3⟩ := hb
  refine ⟨l, h1, ?_, ?_⟩
  · show (l.drop (s.off + i)).take n = _
    rw [List.map_take, List.map_drop, ← h2, List.drop_take, List.drop_drop, List.take_take, Nat.min_eq_left (by omega)]
  · show n = _
    rw [List.length_take, List.length_drop]; omega

theorem BytesAt.keep {h h' : Heap} {o : Option Sl} {bs : List UInt8} (hb : BytesAt h o bs) (hk : ∀ s, o = some s → h'[s.a]? = h[s.a]?) :
    BytesAt h' o bs := by
  cases o with
  | none => exact hb
  | some s => obtain ⟨l, h1, h2, h3⟩ := hb; exact ⟨l, by rw [hk s rfl, h1], h2, h3⟩

theorem bytesIndex_le {sep : List UInt8} : ∀ {s : List UInt8} {i : Nat}, bytesIndex sep s = some i → i + sep.length ≤ s.length := by
  intro s
  induction s with
  | nil =>
    intro i h
    simp only [bytesIndex] at h
    split at h
    · next e => cases h; subst e; simp
    · cases h
  | cons b s ih =>
    intro i h
    rw [bytesIndex] at h
    split at h
    · next hp =>
      cases h
      have := (List.isPrefixOf_iff_prefix.mp hp).length_le
      omega
    · rcases hj : bytesIndex sep s with _ | j
      · rw [hj] at h; cases h
      · rw [hj] at h
        cases h
        have := ih hj
        simp only [List.length_cons]; omega

/-- `bytes.Cut` returns slices with the contents that the model says, which are parts of the argument. -/
theorem cutOf_spec {h : Heap} {o sep : Option Sl} {bs sp b a : List UInt8} {f : Bool} (hb : BytesAt h o bs) (hs : BytesAt h sep sp)
    (hc : bytesCut bs sp = (b, a, f)) (hne : sp ≠ []) :
    ∃ o1 o2, cutOf tB o sep h = .ok ([.slice noName tB o1, .slice noName tB o2, .bool f], h) ∧ BytesAt h o1 b ∧ BytesAt h o2 a ∧
      PartOf o1 o ∧ PartOf o2 o := by
  unfold bytesCut at hc
  have hcut : cutOf tB o sep h = (match bytesIndex sp bs with
      | some i => (pure [.slice noName tB (o.map fun s => subSlice s 0 i),
          .slice noName tB (o.map fun s => subSlice s (i + sp.length) (s.len - (i + sp.length))), .bool true] : M (List Val))
      | none => pure [.slice noName tB o, .slice noName tB none, .bool false]) h := by
    simp only [cutOf, bind_apply, hb.read, hs.read, bindR_ok]
    rfl
  rw [hcut]
  rcases hi : bytesIndex sp bs with _ | i
  · rw [hi] at hc
    cases hc
    exact ⟨o, none, rfl, hb, rfl, .refl o, .none o⟩
  · rw [hi] at hc
    have hle := bytesIndex_le hi
    simp only [Prod.mk.injEq] at hc
    obtain ⟨rfl, rfl, rfl⟩ := hc
    cases o with
    | none =>
      cases hb
      have : sp.length ≠ 0 := fun e => hne (List.eq_nil_of_length_eq_zero e)
      simp only [List.length_nil] at hle
      omega
    | some s =>
      refine ⟨_, _, rfl, ?_, ?_, ?_, ?_⟩
      · have := hb.sub 0 i (by omega)
        simpa using this
      · have h3 : s.len = bs.length := by obtain ⟨l, _, _, h3⟩ := hb; exact h3
        have := hb.sub (i + sp.length) (s.len - (i + sp.length)) (by omega)
        rw [h3] at this
        rw [List.take_of_length_le (l := bs.drop (i + sp.length)) (by rw [List.length_drop]; omega)] at this
        simpa [h3] using this
      · intro s' hs'; cases hs'; exact ⟨s, rfl, rfl⟩
      · intro s' hs'; cases hs'; exact ⟨s, rfl, rfl⟩

theorem trimLeft_suffix : ∀ (n : Nat) (s : List UInt8), trimLeft n s = s.drop (s.length - (trimLeft n s).length) ∧ (trimLeft n s).length ≤ s.length := by
  intro n
  induction n with
  | zero => intro s; simp [trimLeft]
  | succ n ih =>
    intro s
    rw [trimLeft]
    split
    · simp
    · obtain ⟨h1, h2⟩ := ih (s.drop (leadingSpace s))
      rw [List.length_drop] at h1 h2
      refine ⟨?_, by omega⟩
      generalize hr : trimLeft n (s.drop (leadingSpace s)) = r at *
      rw [List.drop_drop] at h1
      by_cases hl : leadingSpace s ≤ s.length
      · rw [show leadingSpace s + (s.length - leadingSpace s - r.length) = s.length - r.length by omega] at h1
        exact h1
      · have : r.length = 0 := by omega
        rw [List.eq_nil_of_length_eq_zero this]
        simp

theorem trimRight_prefix' : ∀ (n : Nat) (s : List UInt8), trimRight n s = s.take (trimRight n s).length ∧ (trimRight n s).length ≤ s.length := by
  intro n
  induction n with
  | zero => intro s; simp [trimRight]
  | succ n ih =>
    intro s
    rw [trimRight]
    split
    · simp
    · obtain ⟨h1, h2⟩ := ih (s.take (s.length - trailingSpace s))
      generalize hr : trimRight n (s.take (s.length - trailingSpace s)) = r at *
      rw [List.length_take] at h2
      rw [List.take_take, Nat.min_eq_left (by omega)] at h1
      exact ⟨h1, by omega⟩

/-- `bytes.TrimSpace` returns a slice with the contents that the model says, which is a part of the argument. -/
theorem trimOf_spec {h : Heap} {o : Option Sl} {bs : List UInt8} (hb : BytesAt h o bs) :
    ∃ o1, trimOf tB o h = .ok ([.slice noName tB o1], h) ∧ BytesAt h o1 (TrimSpace bs) ∧ PartOf o1 o := by
  have ht : trimOf tB o h = (if TrimSpace bs = [] then (pure [.slice noName tB none] : M (List Val))
      else pure [.slice noName tB (o.map fun s => subSlice s (bs.length - (trimLeft bs.length bs).length) (TrimSpace bs).length)]) h := by
    simp only [trimOf, bind_apply, hb.read, bindR_ok]
  rw [ht]
  by_cases he : TrimSpace bs = []
  · rw [if_pos he, he]
    exact ⟨none, rfl, rfl, .none o⟩
  · rw [if_neg he]
    cases o with
    | none => cases hb; exact absurd rfl he
    | some s =>
      refine ⟨_, rfl, ?_, fun s' hs' => by cases hs'; exact ⟨s, rfl, rfl⟩⟩
      obtain ⟨l1, l2⟩ := trimLeft_suffix bs.length bs
      obtain ⟨r1, r2⟩ := trimRight_prefix' (trimLeft bs.length bs).length (trimLeft bs.length bs)
      have hT : TrimSpace bs = trimRight (trimLeft bs.length bs).length (trimLeft bs.length bs) := rfl
      rw [← hT] at r1 r2
      have := hb.sub (bs.length - (trimLeft bs.length bs).length) (TrimSpace bs).length (by omega)
      rw [← l1, ← r1] at this
      exact this

end Textseg.GoMem
