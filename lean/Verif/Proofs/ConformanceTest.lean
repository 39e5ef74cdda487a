import Verif.Model.ConformanceTest
import Verif.Props.Streaming
import Verif.Props.Conformance
import Verif.Props.UCDParse
/-!
# The conformance tests
-/

namespace Textseg
open Spec Scanner Props

theorem utf8_injective {a b : List Char} (h : utf8 a = utf8 b) : a = b := by
  have h1 := pieces_utf8 a
  rw [h] at h1
  exact (List.map_inj_right (fun a b => charPiece_injective a b)).mp (pieces_unique h1 (pieces_utf8 b))

/-- The wanted segments are the tokens exactly if they are the segmentation that UAX #29 demands. -/
theorem wanted_iff {segs : List (List Char)} {toks : List (List UInt8)} (ht : tokens (utf8 segs.flatten) = .ok toks) :
    toks = segs.map utf8 ↔ IsSegmentation CharBoundary segs.flatten segs := by
  obtain ⟨segs', h1, h2⟩ := C05_conforms_to_UAX29 segs.flatten
  rw [ht] at h2
  cases h2
  constructor
  · intro h
    rwa [(List.map_inj_right (fun a b hab => utf8_injective hab)).mp h] at h1
  · intro h
    rw [isSegmentation_unique h1 h]

theorem subtestWhole_spec (segs : List (List Char)) (hn : (utf8 segs.flatten).length ≤ 2049) :
    ∃ b, subtestWhole { Input := utf8 segs.flatten, WantSegments := segs.map utf8 } = .ok b ∧
      (b = true ↔ IsSegmentation CharBoundary segs.flatten segs) := by
  obtain ⟨toks, ht⟩ := tokens_ok (utf8 segs.flatten)
  have h := C38_all_tokens_partial _ hn toks ht
  refine ⟨toks == segs.map utf8, ?_, ?_⟩
  · unfold subtestWhole
    simp only [bind, Except.bind, h]
    rfl
  · rw [beq_iff_eq, wanted_iff ht]

theorem subtestPartial_spec (segs : List (List Char)) (hn : (utf8 segs.flatten).length ≤ 2049) :
    ∃ b, subtestPartial { Input := utf8 segs.flatten, WantSegments := segs.map utf8 } = .ok b ∧
      (b = true ↔ IsSegmentation CharBoundary segs.flatten segs) := by
  obtain ⟨toks, ht⟩ := tokens_ok (utf8 segs.flatten)
  obtain ⟨refs, s', h1, h2, h3⟩ := C51_kept_slices dripReader .eof _ _ (by simp) hn (dripReader_delivers _) toks ht
    ((utf8 segs.flatten).length + 1) (by omega)
  refine ⟨toks == segs.map utf8, ?_, ?_⟩
  · unfold subtestPartial
    simp only [bind, Except.bind, h1, h2, h3]
    rfl
  · rw [beq_iff_eq, wanted_iff ht]

theorem runTests_spec {σ : Type} {subtest : TestDataEntry → Go Bool} {read : Reader σ} (fuel : Nat) :
    ∀ {s : Scanner σ} {ents : List TestDataEntry} {e : ParseErr}, allTestEntries read fuel s = .ok (ents, e) →
    ∀ {outs : List Bool}, ents.mapM subtest = .ok outs → runTests subtest read fuel s = .ok (outs, e == .io .eof) := by
  induction fuel with
  | zero => intro s ents e h; cases h
  | succ fuel ih =>
    intro s ents e h outs ho
    rw [allTestEntries] at h
    rw [runTests]
    simp only [bind, Except.bind] at h ⊢
    cases hx : NextTestEntry read (fuel + 1) s with
    | error e => rw [hx] at h; cases h
    | ok y =>
      rw [hx] at h
      obtain ⟨r, s1⟩ := y
      cases r with
      | error e =>
        cases h
        cases ho
        rfl
      | ok test =>
        simp only at h ⊢
        cases hy : allTestEntries read fuel s1 with
        | error e => rw [hy] at h; cases h
        | ok z =>
          obtain ⟨ents1, e1⟩ := z
          rw [hy] at h
          cases h
          rw [List.mapM_cons] at ho
          simp only [bind, Except.bind] at ho
          cases ht : subtest test with
          | error e => rw [ht] at ho; cases ho
          | ok b =>
            rw [ht] at ho
            simp only at ho ⊢
            cases hm : ents1.mapM subtest with
            | error e => rw [hm] at ho; cases ho
            | ok bs =>
              rw [hm] at ho
              cases ho
              rw [ih hy hm]

theorem outcomes_spec {subtest : TestDataEntry → Go Bool}
    (hs : ∀ segs : List (List Char), (utf8 segs.flatten).length ≤ 2049 →
      ∃ b, subtest { Input := utf8 segs.flatten, WantSegments := segs.map utf8 } = .ok b ∧
        (b = true ↔ IsSegmentation CharBoundary segs.flatten segs))
    (tests : List (List (List Char))) : ∀ (ents : List TestDataEntry),
    ents.map TestDataEntry.Input = tests.map (fun segs => utf8 segs.flatten) →
    ents.map TestDataEntry.WantSegments = tests.map (fun segs => segs.map utf8) →
    (∀ segs ∈ tests, (utf8 segs.flatten).length ≤ 2049) →
    ∃ outs, ents.mapM subtest = .ok outs ∧
      ForallTwo (fun b segs => b = true ↔ IsSegmentation CharBoundary segs.flatten segs) outs tests := by
  induction tests with
  | nil =>
    intro ents h1 _ _
    have : ents = [] := by simpa using h1
    subst this
    exact ⟨[], rfl, .nil⟩
  | cons segs tests ih =>
    intro ents h1 h2 hn
    match ents, h1, h2 with
    | ⟨i, w⟩ :: ents, h1, h2 =>
      rw [List.map_cons, List.map_cons, List.cons.injEq] at h1 h2
      obtain ⟨h11, h12⟩ := h1
      obtain ⟨h21, h22⟩ := h2
      simp only at h11 h21
      subst h11 h21
      obtain ⟨b, hb, hb'⟩ := hs segs (hn segs (by simp))
      obtain ⟨outs, ho, ho'⟩ := ih ents h12 h22 (fun s hs => hn s (by simp [hs]))
      exact ⟨b :: outs, mapM_cons _ _ _ hb ho, .cons _ _ _ _ hb' ho'⟩

theorem forallTwo_all {outs : List Bool} {tests : List (List (List Char))} {P : List (List Char) → Prop}
    (h : ForallTwo (fun b segs => b = true ↔ P segs) outs tests) : outs.all id = true ↔ ∀ segs ∈ tests, P segs := by
  induction h with
  | nil => simp
  | cons a b as bs hab _ ih =>
    rw [List.all_cons, Bool.and_eq_true, ih]
    simp only [id, hab, List.forall_mem_cons]

end Textseg
