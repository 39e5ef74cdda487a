import Verif.Proofs.Grammar
import Verif.Proofs.ConformanceTest
import Verif.Model.Text
/-!
# C61: the tokens are the matches of the regular expression of UAX #29
-/

namespace Textseg
open Spec Spec.Grammar

/-- The characters match the regular expression for extended grapheme clusters. -/
def Egc (cs : List Char) : Prop := egc (cs.map fun c => ucd c.val.toNat)

/-- **C61.** The tokens of a text are exactly what matching the regular expression as far as possible, again and again, gives. -/
theorem C61_greedy (cs : List Char) (segs : List (List Char)) :
    tokens (utf8 cs) = .ok (segs.map utf8) ↔ Greedy Egc cs segs := by
  rw [tokens_segsOf, Except.ok.injEq, List.map_inj_right fun a b h => utf8_injective h]
  induction h : cs.length using Nat.strongRecOn generalizing cs segs with
  | ind n ih =>
    cases cs with
    | nil =>
      constructor
      · rintro rfl; exact .nil
      · intro h
        generalize hc : ([] : List Char) = cs at h
        cases h with
        | nil => rfl
        | cons u v segs h1 => exact absurd (List.append_eq_nil_iff.mp hc.symm).1 h1
    | cons c cs =>
      obtain ⟨u, v, rfl, h1, h2, h3⟩ := segsOf_first c cs
      have hlt : v.length < n := by rw [← h]; simp; omega
      rw [h1]
      constructor
      · rintro rfl
        refine .cons (c :: u) v _ (by simp) h2 ?_ ((ih _ hlt v _ rfl).mp rfl)
        intro u' v' e hu
        cases u' with
        | nil => simp
        | cons x u' =>
          rw [List.cons_append, List.cons_append] at e
          obtain ⟨rfl, e'⟩ := List.cons.inj e
          simpa using h3 u' v' e'.symm hu
      · intro hg
        generalize hcs : c :: (u ++ v) = cs at hg
        cases hg with
        | nil => cases hcs
        | cons a b segs ha hA hmax hb =>
          cases a with
          | nil => exact absurd rfl ha
          | cons x a =>
            rw [List.cons_append] at hcs
            obtain ⟨rfl, e⟩ := List.cons.inj hcs
            have e1 : a.length ≤ u.length := h3 a b e hA
            have e2 : (c :: u).length ≤ (c :: a).length := hmax (c :: u) v (by simp [e]) h2
            have e3 : u.length = a.length := by simp at e2; omega
            obtain ⟨rfl, rfl⟩ := List.append_inj e e3
            rw [(ih _ hlt v _ rfl).mpr hb]

/-- **C61.** Every token of a text matches the regular expression, and it is the longest such prefix of what is left. -/
theorem C61_longest_match {cs : List Char} {segs : List (List Char)} (h : tokens (utf8 cs) = .ok (segs.map utf8))
    {before after : List (List Char)} {t : List Char} (hs : segs = before ++ t :: after) :
    Egc t ∧ ∀ u v, u ++ v = t ++ after.flatten → Egc u → u.length ≤ t.length := by
  rw [C61_greedy] at h
  induction before generalizing cs segs with
  | nil =>
    subst hs
    cases h with
    | cons _ v _ h1 h2 h3 h4 =>
      refine ⟨h2, ?_⟩
      have h5 : after = segsOf v := by
        have := (C61_greedy v after).mpr h4
        rw [tokens_segsOf, Except.ok.injEq, List.map_inj_right fun a b h => utf8_injective h] at this
        exact this.symm
      rw [h5, segsOf_flatten]
      exact h3
  | cons b before ih =>
    subst hs
    cases h with
    | cons _ v _ h1 h2 h3 h4 => exact ih h4 rfl

/-- **C61.** A text is a single token exactly if it matches the regular expression. -/
theorem C61_single (cs : List Char) : tokens (utf8 cs) = .ok [utf8 cs] ↔ Egc cs := by
  have := C61_greedy cs [cs]
  rw [List.map_cons, List.map_nil] at this
  rw [this]
  constructor
  · intro h
    generalize hs : [cs] = segs at h
    cases h with
    | nil => cases hs
    | cons u v segs h1 h2 h3 h4 =>
      rw [(List.cons.inj hs).1]
      exact h2
  · intro h
    have h0 : cs ≠ [] := by rintro rfl; exact egc_nil h
    have := Greedy.cons (A := Egc) cs [] [] h0 h (by
      intro u v e _
      rw [List.append_nil] at e
      rw [← e]; simp) .nil
    rwa [List.append_nil] at this

/-! A flag with a mark after a prepended character; a syllable; a family; a conjunct. Each of them matches; a Tamil cluster with a
consonant after its linker does not. -/

example : Egc ['\u0600', Char.ofNat 0x1F1E9, Char.ofNat 0x1F1EA, '\u0308'] := by
  refine Or.inr (Or.inr ⟨[_], _, rfl, .more [_] [] ⟨_, rfl, ?_⟩ .nil, [_, _], [_], rfl, Or.inr (Or.inl ⟨[_], [_], rfl, ⟨_, rfl, ?_⟩,
    ⟨_, rfl, ?_⟩⟩), .more [_] [] ⟨_, rfl, ?_⟩ .nil⟩) <;> decide +kernel
example : Egc ['\u1112', '\u1161', '\u11AB'] := (C61_single _).mp (by decide +kernel)
example : Egc [Char.ofNat 0x1F469, '\u200D', Char.ofNat 0x1F469, '\u200D', Char.ofNat 0x1F466] := (C61_single _).mp (by decide +kernel)
example : Egc ['\u0915', '\u094D', '\u0937', '\u093F'] := (C61_single _).mp (by decide +kernel)
example : ¬ Egc ['\u0B95', '\u0BCD', '\u0BB7'] := by rw [← C61_single]; decide +kernel
example : ¬ Egc [] := egc_nil
/-- Two texts whose tokens are not what a shorter match would give. -/
example : Greedy Egc ['a', '\u0308', '\r', '\n', 'b'] [['a', '\u0308'], ['\r', '\n'], ['b']] :=
  (C61_greedy _ _).mp (by decide +kernel)
example : ¬ Greedy Egc ['a', '\r', '\n'] [['a'], ['\r'], ['\n']] := by rw [← C61_greedy]; decide +kernel

end Textseg
