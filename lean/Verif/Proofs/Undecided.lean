import Verif.Proofs.Cuts
/-!
# When the split function asks for more data
-/

namespace Textseg
open Spec

theorem grow_none {e : Bool} {R : Text} {p : List UInt8} {r : Option Nat} (h : Grow e R p r) (hr : r = none) :
    ∃ ss tail, p = ss.flatten ++ tail ∧ (∀ s ∈ ss, IsSeq s) ∧ (tail = [] ∨ IsIncomplete tail) ∧
      ∀ b n a, ss = b ++ n :: a → brk ((b.map seqProps).reverse ++ R) (seqProps n) = false := by
  induction h with
  | nil R => exact ⟨[], [], rfl, by simp, Or.inl rfl, by simp⟩
  | bad => cases hr
  | incomplete R b t n h1 h2 =>
    exact ⟨[], b :: t, rfl, by simp, Or.inr ⟨b, t, n, rfl, h1, by simpa using h2⟩, by simp⟩
  | split => cases hr
  | more R bs rest r h1 hb hg ih =>
    obtain ⟨ss, tail, h2, h3, h4, h5⟩ := ih (by simpa using hr)
    refine ⟨bs :: ss, tail, by rw [h2]; simp, by simpa using ⟨h1, h3⟩, h4, ?_⟩
    intro b n a h
    cases b with
    | nil =>
      simp only [List.nil_append, List.cons.injEq] at h
      rw [← h.1]; exact hb
    | cons x b =>
      simp only [List.cons_append, List.cons.injEq] at h
      rw [← h.1]
      have := h5 b n a h.2
      simpa using this

theorem grow_none_of (ss : List (List UInt8)) (tail : List UInt8) (h1 : ∀ s ∈ ss, IsSeq s)
    (h2 : tail = [] ∨ IsIncomplete tail) : ∀ R : Text,
    (∀ b n a, ss = b ++ n :: a → brk ((b.map seqProps).reverse ++ R) (seqProps n) = false) →
    Grow false R (ss.flatten ++ tail) none := by
  induction ss with
  | nil =>
    intro R _
    rcases h2 with rfl | ⟨b, t, n, rfl, h3, h4⟩
    · exact .nil R
    · exact .incomplete R b t n h3 (by simpa using h4)
  | cons s ss ih =>
    intro R h3
    rw [List.flatten_cons, List.append_assoc]
    refine .more R s (ss.flatten ++ tail) none (h1 s (by simp)) (h3 [] s ss rfl) ?_
    refine ih (fun x hx => h1 x (by simp [hx])) (seqProps s :: R) ?_
    intro b n a h
    have := h3 (s :: b) n a (by rw [h]; rfl)
    simpa using this

theorem scanRes_none_iff (data : List UInt8) : ScanRes false data none ↔
    ∃ ss tail, data = ss.flatten ++ tail ∧ (∀ s ∈ ss, IsSeq s) ∧ (tail = [] ∨ IsIncomplete tail) ∧
      ∀ before after, ss = before ++ after → before ≠ [] → after ≠ [] →
        ¬ Boundary (before.map seqProps) (after.map seqProps) := by
  have hB : ∀ (before : List (List UInt8)) n a, Boundary (before.map seqProps) ((n :: a).map seqProps) ↔
      brk (before.map seqProps).reverse (seqProps n) = true := by
    intro before n a
    have := boundary_iff (before.map seqProps).reverse (seqProps n) (a.map seqProps)
    rw [List.reverse_reverse] at this
    exact this
  constructor
  · intro h
    generalize hr : none = r at h
    cases h with
    | nil =>
      refine ⟨[], [], rfl, by simp, Or.inl rfl, ?_⟩
      intro before after h h1
      simp only [List.nil_eq, List.append_eq_nil_iff] at h
      exact absurd h.1 h1
    | bad => cases hr
    | incomplete b t n h1 h2 =>
      refine ⟨[], b :: t, rfl, by simp, Or.inr ⟨b, t, n, rfl, h1, by simpa using h2⟩, ?_⟩
      intro before after h h1
      simp only [List.nil_eq, List.append_eq_nil_iff] at h
      exact absurd h.1 h1
    | seq bs rest r h1 hg =>
      obtain ⟨ss, tail, h2, h3, h4, h5⟩ := grow_none hg (by simpa using hr.symm)
      refine ⟨bs :: ss, tail, by rw [h2]; simp, by simpa using ⟨h1, h3⟩, h4, ?_⟩
      intro before after h hb ha
      match before, after, hb, ha with
      | x :: before, n :: a, _, _ =>
        simp only [List.cons_append, List.cons.injEq] at h
        rw [← h.1, hB]
        have := h5 before n a h.2
        simpa using this
  · rintro ⟨ss, tail, rfl, h1, h2, h3⟩
    cases ss with
    | nil =>
      rcases h2 with rfl | ⟨b, t, n, rfl, h3, h4⟩
      · exact .nil
      · exact .incomplete b t n h3 (by simpa using h4)
    | cons s ss =>
      rw [List.flatten_cons, List.append_assoc]
      refine .seq s _ none (h1 s (by simp)) (grow_none_of ss tail (fun x hx => h1 x (by simp [hx])) h2 _ ?_)
      intro b n a h
      have := h3 (s :: b) (n :: a) (by rw [h]; rfl) (by simp) (by simp)
      rw [hB] at this
      simpa using this

end Textseg
