import Verif.Proofs.TableTest
import Verif.Proofs.DataFiles
/-!
# The table tests on the committed files
-/

namespace Textseg.Gen
open Textseg Spec Scanner

/-- The codes of the properties of a character. -/
theorem lookup_char (c : Char) : LookupFirstChar (String.utf8EncodeChar c) =
    .ok (ucdByte c.val.toNat, (String.utf8EncodeChar c).length) := by
  have := lookup_seq (isSeq_encode c) []
  rw [List.append_nil, seqProps_encode] at this
  exact this

theorem pack_low {p : CharProps} (h : p.Consistent) : pack p &&& 0x0F = if p.extPict then 4 else gcbCode p.gcb := by
  obtain ⟨g, e, i⟩ := p
  have := h.pict
  cases e
  · cases g <;> cases i <;> rfl
  · obtain ⟨h1, h2⟩ := this rfl
    simp only at h1 h2
    subst h1 h2
    rfl

theorem pack_high {p : CharProps} : pack p &&& 0xF0 = incbCode p.incb := by
  obtain ⟨g, e, i⟩ := p
  cases g <;> cases e <;> cases i <;> rfl

theorem charFor_val {c : Nat} (h : c.isValidChar) : (charFor c).val.toNat = c := by
  unfold charFor
  rw [if_pos ⟨by omega, by simpa using h⟩]
  exact charOfNat_val h

/-- What the committed files list for a code point, and what is recorded for it. -/
theorem committed_wants {es1 es2 es3 : List FileEntry} (hs : ShippedEntries es1 es2 es3) :
    (∀ x ∈ es1, ∀ v, gcbWant LookupGCBProperty x = some v → ∀ c, x.1 ≤ c → c ≤ x.2.1 →
      c.isValidChar ∧ ucdByte c &&& 0x0F = v ∧ v ≠ 0) ∧
    (∀ x ∈ es2, ∀ v, pictWant x = some v → ∀ c, x.1 ≤ c → c ≤ x.2.1 → c.isValidChar ∧ ucdByte c &&& 0x0F = v ∧ v ≠ 0) ∧
    (∀ x ∈ es3, ∀ v, incbWant LookupInCBProperty x = some v → ∀ c, x.1 ≤ c → c ≤ x.2.1 →
      c.isValidChar ∧ ucdByte c &&& 0xF0 = v) := by
  have hr := relevant_of hs
  refine ⟨fun x hx v hv c h1 h2 => ?_, fun x hx v hv c h1 h2 => ?_, fun x hx v hv c h1 h2 => ?_⟩
  · obtain ⟨⟨lo, hi, g⟩, hm, e1, e2, e3⟩ := mem_data (k := fun (g : GCB) => some (ascii g.ucdName)) hr.gcb hx
    simp only at e1 e2 e3
    unfold gcbWant at hv
    rw [← e3, Option.map_some, Option.some.injEq, ascii_gcb] at hv
    have hg : (ucd c).gcb = g := by
      unfold ucd
      simp only
      rw [lookupRange_of_mem gcb_disjoint hm (by omega) (by omega)]
      rfl
    have hne : g ≠ .Other := by
      have := List.all_eq_true.mp gcb_tagged _ hm
      intro h
      subst h
      have h : (!(gcbTag GCB.Other == 0)) = true := this
      exact absurd h (by decide)
    refine ⟨scalarB_sound gcb_scalar hm (by simp only; omega) (by simp only; omega), ?_, ?_⟩
    · rw [ucdByte, pack_low (ucd_consistent c)]
      cases hp : (ucd c).extPict
      · rw [if_neg (by decide), hg, hv]
      · exact absurd (hg.symm.trans ((ucd_consistent c).pict hp).1) hne
    · rw [← hv]
      cases g <;> first | exact absurd rfl hne | decide
  · unfold pictWant at hv
    split at hv
    · rename_i hp
      rw [Option.some.injEq] at hv
      subst hv
      have hx' : x ∈ es2.filter pictEntry := List.mem_filter.mpr ⟨hx, by unfold pictEntry; rw [hp]; exact beq_self_eq_true _⟩
      obtain ⟨⟨lo, hi, u⟩, hm, e1, e2, _⟩ := mem_data (f := fun _ => ()) (k := fun _ => ()) hr.pict' hx'
      simp only at e1 e2
      have hp : (ucd c).extPict = true := by
        unfold ucd
        simp only
        exact lookupRange_isSome.mpr ⟨lo, hi, hm, by omega, by omega⟩
      refine ⟨scalarB_sound pict_scalar hm (by simp only; omega) (by simp only; omega), ?_, by decide⟩
      rw [ucdByte, pack_low (ucd_consistent c), if_pos hp]
    · cases hv
  · unfold incbWant at hv
    split at hv
    · rename_i prop name rest hfs
      split at hv
      · rename_i hp
        rw [Option.some.injEq] at hv
        have hx' : x ∈ es3.filter incbEntry := List.mem_filter.mpr ⟨hx, by
          unfold incbEntry; rw [hfs, hp, List.head?_cons]; exact beq_self_eq_true _⟩
        obtain ⟨⟨lo, hi, g⟩, hm, e1, e2, e3⟩ := mem_data (k := fun (g : InCB) => some (ascii g.ucdName)) hr.incb hx'
        simp only at e1 e2 e3
        rw [hfs] at e3
        simp only [List.getElem?_cons_succ, List.getElem?_cons_zero, Option.some.injEq] at e3
        rw [← e3, ascii_incbName] at hv
        refine ⟨scalarB_sound incb_scalar hm (by simp only; omega) (by simp only; omega), ?_⟩
        rw [ucdByte, pack_high, ← hv]
        unfold ucd
        simp only
        rw [lookupRange_of_mem incb_disjoint hm (by omega) (by omega)]
        rfl
      · cases hv
    · cases hv

/-- The number of code points in the entries of a list. -/
def countB {α : Type} : List (Nat × Nat × α) → Nat
  | [] => 0
  | r :: rs => r.2.1 + 1 - r.1 + countB rs

theorem countB_eq {α : Type} {want : FileEntry → Option UInt8} {es : List FileEntry} {data : List (Nat × Nat × α)}
    (h : es.map (fun x => (x.1, x.2.1)) = data.map fun r => (r.1, r.2.1)) (hw : ∀ x ∈ es, (want x).isSome = true) :
    (checksOf want es).length = countB data := by
  induction es generalizing data with
  | nil =>
    cases data with
    | nil => rfl
    | cons r rs => cases h
  | cons x es ih =>
    cases data with
    | nil => cases h
    | cons r rs =>
      rw [List.map_cons, List.map_cons, List.cons.injEq, Prod.mk.injEq] at h
      rw [checksOf_cons, List.length_append, countB, ih h.2 fun y hy => hw y (List.mem_cons_of_mem _ hy)]
      obtain ⟨v, hv⟩ := Option.isSome_iff_exists.mp (hw x List.mem_cons_self)
      rw [checksOf_some hv, List.length_map, List.length_range, h.1.1, h.1.2]

theorem checksOf_filter {want : FileEntry → Option UInt8} {p : FileEntry → Bool} (h : ∀ x, p x = false → want x = none)
    (es : List FileEntry) : checksOf want es = checksOf want (es.filter p) := by
  induction es with
  | nil => rfl
  | cons x es ih =>
    rw [checksOf_cons, List.filter_cons]
    split
    · rw [checksOf_cons want x (es.filter p), ih]
    · rename_i hp
      rw [checksOf_none (h x (by simpa using hp)), List.nil_append, ih]

set_option maxRecDepth 100000 in
theorem gcb_count : countB graphemeBreakProperty = 18101 := by decide +kernel
set_option maxRecDepth 100000 in
theorem pict_count : countB extendedPictographic = 2848 := by decide +kernel
set_option maxRecDepth 100000 in
theorem incb_count : countB indicConjunctBreak = 3148 := by decide +kernel

/-- The numbers of checks. -/
theorem committed_counts {es1 es2 es3 : List FileEntry} (hs : ShippedEntries es1 es2 es3) :
    (checksOf (gcbWant LookupGCBProperty) es1).length = 18101 ∧ (checksOf pictWant es2).length = 2848 ∧
      (checksOf (incbWant LookupInCBProperty) es3).length = 3148 := by
  have hr := relevant_of hs
  refine ⟨?_, ?_, ?_⟩
  · rw [← gcb_count]
    refine countB_eq ?_ fun x hx => ?_
    · have := congrArg (List.map fun p : Nat × Nat × Option (List UInt8) => (p.1, p.2.1)) hr.gcb
      simpa [List.map_map, Function.comp_def] using this
    · have := hr.fields x hx
      unfold gcbWant
      cases h : x.2.2 with
      | nil => exact absurd h this
      | cons a l => rfl
  · rw [← pict_count, checksOf_filter (p := pictEntry)]
    · refine countB_eq hr.pict fun x hx => ?_
      have := hr.pictE x hx
      unfold pictEntry at this
      unfold pictWant
      rw [if_pos (by simpa using this)]
      rfl
    · intro x hx
      unfold pictEntry at hx
      unfold pictWant
      rw [if_neg (by simpa using hx)]
  · rw [← incb_count, checksOf_filter (p := incbEntry)]
    · refine countB_eq ?_ fun x hx => ?_
      · have := congrArg (List.map fun p : Nat × Nat × Option (List UInt8) => (p.1, p.2.1)) hr.incb
        simpa [List.map_map, Function.comp_def] using this
      · have h := hr.incbE x hx
        unfold incbEntry at h
        obtain ⟨r, hm, e1, e2, e3⟩ := mem_data (k := fun (g : InCB) => some (ascii g.ucdName)) hr.incb hx
        unfold incbWant
        rcases hf : x.2.2 with _ | ⟨a, _ | ⟨b, l⟩⟩
        · rw [hf] at h; cases h
        · rw [hf] at e3; cases e3
        · rw [hf, List.head?_cons] at h
          simp only
          rw [if_pos (by simpa using h)]
          rfl
    · intro x hx
      unfold incbEntry at hx
      unfold incbWant
      rcases hf : x.2.2 with _ | ⟨a, _ | ⟨b, l⟩⟩
      · rfl
      · rfl
      · rw [hf, List.head?_cons] at hx
        simp only
        rw [if_neg (by simpa using hx)]

/-! ## A table that differs at one place -/

/-- `lookupProps` with another value at `i`. -/
def propsWith (i : Nat) (v : UInt8) (j : Nat) : Go UInt8 := if j = i then .ok v else lookupProps.index j

theorem propsWith_eq (i : Nat) (v : UInt8) {w : UInt8} (hw : lookupProps.index i = .ok w) (j : Nat) :
    propsWith i v j = lookupProps.index j ∨ (lookupProps.index j = .ok w ∧ propsWith i v j = .ok v) := by
  unfold propsWith
  by_cases h : j = i
  · subst h; exact .inr ⟨hw, if_pos rfl⟩
  · exact .inl (if_neg h)

theorem lookupSwitch_with (i : Nat) (v : UInt8) {w : UInt8} (hw : lookupProps.index i = .ok w) (p : List UInt8) (first : UInt8) (length : Nat) :
    lookupSwitchIn lookupIndices.index (propsWith i v) p first length = lookupSwitch p first length ∨
      (lookupSwitch p first length = .ok (w, length) ∧
        lookupSwitchIn lookupIndices.index (propsWith i v) p first length = .ok (v, length)) := by
  have key : ∀ j, (propsWith i v j >>= fun props => (.ok (props, length) : Go (CharProperties × Nat))) =
      (lookupProps.index j >>= fun props => .ok (props, length)) ∨
      ((lookupProps.index j >>= fun props => (.ok (props, length) : Go (CharProperties × Nat))) = .ok (w, length) ∧
        (propsWith i v j >>= fun props => (.ok (props, length) : Go (CharProperties × Nat))) = .ok (v, length)) := by
    intro j
    rcases propsWith_eq i v hw j with h | ⟨h1, h2⟩
    · exact .inl (by rw [h])
    · exact .inr ⟨by rw [h1]; rfl, by rw [h2]; rfl⟩
  have step : ∀ {α : Type} (a : Go α) (F G : α → Go (CharProperties × Nat)),
      (∀ x, F x = G x ∨ (G x = .ok (w, length) ∧ F x = .ok (v, length))) →
      (a >>= F) = (a >>= G) ∨ ((a >>= G) = .ok (w, length) ∧ (a >>= F) = .ok (v, length)) := by
    intro α a F G h
    cases a with
    | error e => exact .inl rfl
    | ok x => exact h x
  unfold lookupSwitch lookupSwitchIn
  split
  · exact key _
  split
  · exact step _ _ _ fun _ => step _ _ _ fun _ => key _
  split
  · exact step _ _ _ fun _ => step _ _ _ fun _ => step _ _ _ fun _ => step _ _ _ fun _ => key _
  split
  · exact step _ _ _ fun _ => step _ _ _ fun _ => step _ _ _ fun _ => step _ _ _ fun _ => step _ _ _ fun _ =>
      step _ _ _ fun _ => key _
  · exact .inl rfl

/-- A lookup in the changed table gives what it gave before, unless it gave the value that is changed. -/
theorem lookup_with (i : Nat) (v : UInt8) {w : UInt8} (hw : lookupProps.index i = .ok w) (p : List UInt8) :
    LookupFirstCharIn lookupIndices.index (propsWith i v) p = LookupFirstChar p ∨
      ∃ n, LookupFirstChar p = .ok (w, n) ∧ LookupFirstCharIn lookupIndices.index (propsWith i v) p = .ok (v, n) := by
  cases p with
  | nil => exact .inl rfl
  | cons first t =>
    unfold LookupFirstChar LookupFirstCharIn
    simp only
    cases seqLength first with
    | none => exact .inl rfl
    | some length =>
      simp only
      split
      · exact .inl rfl
      · cases continuationLoop (first :: t) 1 (length - 1) with
        | error e => exact .inl rfl
        | ok good =>
          cases good with
          | false => exact .inl rfl
          | true =>
            rcases lookupSwitch_with i v hw (first :: t) first length with h | ⟨h1, h2⟩
            · exact .inl h
            · exact .inr ⟨length, h1, h2⟩

end Textseg.Gen
