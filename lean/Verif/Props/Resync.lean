import Verif.Proofs.Resync
import Verif.Props.Editing
/-!
# C62: where the past no longer matters

`Forgets`: the character is neither Extend, nor ZWJ, nor a regional indicator.
-/

namespace Textseg.Props
open Textseg Spec

/-- C62: whatever bytes come before a character that is neither Extend, nor ZWJ, nor a regional indicator, the boundaries after
that character are the same: those of the input that begins with that character. -/
theorem C62_boundaries_after (pre post : List UInt8) (c : Char)
    (hc : gcbOf c ≠ .Extend ∧ gcbOf c ≠ .ZWJ ∧ gcbOf c ≠ .RegionalIndicator) (toks toks' : List (List UInt8))
    (ht : tokens (pre ++ utf8 [c] ++ post) = .ok toks) (ht' : tokens (utf8 [c] ++ post) = .ok toks') (k : Nat)
    (hk : (utf8 [c]).length ≤ k) : CutAt toks (pre.length + k) ↔ CutAt toks' k := by
  rw [utf8, List.flatMap_singleton] at *
  rw [List.append_assoc] at ht
  exact cut_forget hc ht ht' hk

/-- C62: the tokens of the input that begins with that character, apart from the first one, are the last tokens of the whole. -/
theorem C62_tokens_after (pre post : List UInt8) (c : Char)
    (hc : gcbOf c ≠ .Extend ∧ gcbOf c ≠ .ZWJ ∧ gcbOf c ≠ .RegionalIndicator) (toks : List (List UInt8)) (t : List UInt8)
    (rest : List (List UInt8)) (ht : tokens (pre ++ utf8 [c] ++ post) = .ok toks)
    (ht' : tokens (utf8 [c] ++ post) = .ok (t :: rest)) : rest <:+ toks := by
  rw [utf8, List.flatMap_singleton] at *
  rw [List.append_assoc] at ht
  exact suffix_forget hc ht ht'

/-- C62: editing. If the part `m` between `a` and a character `c` as above is replaced by `m'`, all tokens of `a` but the last one
and all tokens of what begins with `c` but the first one are kept; only what is between them has to be cut anew. -/
theorem C62_editing (a m m' post : List UInt8) (c : Char)
    (hc : gcbOf c ≠ .Extend ∧ gcbOf c ≠ .ZWJ ∧ gcbOf c ≠ .RegionalIndicator)
    (hm : ∀ x, m.head? = some x → ¬ IsCont x) (hm' : ∀ x, m'.head? = some x → ¬ IsCont x)
    (ta toks toks' : List (List UInt8)) (t : List UInt8) (rest : List (List UInt8)) (ha : tokens a = .ok ta)
    (hp : tokens (utf8 [c] ++ post) = .ok (t :: rest)) (ht : tokens (a ++ m ++ utf8 [c] ++ post) = .ok toks)
    (ht' : tokens (a ++ m' ++ utf8 [c] ++ post) = .ok toks') :
    ∃ mid mid', toks = ta.dropLast ++ mid ++ rest ∧ toks' = ta.dropLast ++ mid' ++ rest ∧
      mid.flatten = ta.getLast?.getD [] ++ m ++ t ∧ mid'.flatten = ta.getLast?.getD [] ++ m' ++ t := by
  have one : ∀ (m : List UInt8) (toks : List (List UInt8)), (∀ x, m.head? = some x → ¬ IsCont x) →
      tokens (a ++ m ++ utf8 [c] ++ post) = .ok toks →
      ∃ mid, toks = ta.dropLast ++ mid ++ rest ∧ mid.flatten = ta.getLast?.getD [] ++ m ++ t := by
    intro m toks hm ht
    have hsuf := C62_tokens_after (a ++ m) post c hc toks t rest (by simpa using ht) hp
    have hpre := C48_appending_to_bytes a (m ++ utf8 [c] ++ post) (by
      intro x hx
      cases m with
      | nil =>
        rw [List.nil_append] at hx
        obtain ⟨y, s, e, hy⟩ := encode_head_not_cont c
        rw [utf8, List.flatMap_singleton, e, List.cons_append, List.head?_cons] at hx
        cases hx; exact hy
      | cons y m =>
        rw [List.cons_append, List.cons_append, List.head?_cons] at hx
        cases hx; exact hm _ rfl) ta toks ha (by simpa using ht)
    have hfa := tokens_flatten ha
    have hft := tokens_flatten ht
    have hfp := tokens_flatten hp
    have hta : ta.flatten = ta.dropLast.flatten ++ ta.getLast?.getD [] := by
      rcases List.eq_nil_or_concat ta with rfl | ⟨i, l, rfl⟩
      · rfl
      · simp
    have htne : 0 < t.length := List.length_pos_iff.mpr (token_ne_nil hp t (by simp))
    obtain ⟨x, hx⟩ := hpre
    obtain ⟨y, hy⟩ := hsuf
    have hxf : x.flatten = ta.getLast?.getD [] ++ m ++ t ++ rest.flatten := by
      rw [← hx, List.flatten_append] at hft
      rw [← hfa, hta, List.append_assoc _ _ post, ← hfp, List.flatten_cons] at hft
      simp only [List.append_assoc] at hft ⊢
      exact List.append_cancel_left hft
    have hxy := hx.trans hy.symm
    rcases List.append_eq_append_iff.mp hxy with ⟨w, e1, e2⟩ | ⟨w, e1, e2⟩
    · refine ⟨w, by rw [← hx, e2, List.append_assoc], ?_⟩
      rw [e2, List.flatten_append] at hxf
      exact List.append_cancel_right hxf
    · have h1 := congrArg List.length hxf
      have h2 := congrArg (fun l => l.flatten.length) e2
      simp only [List.flatten_append, List.length_append] at h1 h2
      omega
  obtain ⟨mid, h1, h2⟩ := one m toks hm ht
  obtain ⟨mid', h3, h4⟩ := one m' toks' hm' ht'
  exact ⟨mid, mid', h1, h3, h2, h4⟩

/-- C62: after a regional indicator the past does matter, without limit: putting one more in front of any number of regional
indicators turns every boundary between them into a place without a boundary and the other way round. -/
theorem C62_flags_shift (r : Char) (u v : List Char) (hr : gcbOf r = .RegionalIndicator)
    (hu : ∀ c ∈ u, gcbOf c = .RegionalIndicator) (hv : ∀ c ∈ v, gcbOf c = .RegionalIndicator) (hu0 : u ≠ []) (hv0 : v ≠ [])
    (toks toks' : List (List UInt8)) (ht : tokens (utf8 (u ++ v)) = .ok toks) (ht' : tokens (utf8 (r :: (u ++ v))) = .ok toks') :
    CutAt toks' (utf8 (r :: u)).length ↔ ¬ CutAt toks (utf8 u).length := by
  rw [← List.cons_append] at ht'
  rw [cutAt_text ht' (by simp) hv0, cutAt_text ht hu0 hv0]
  obtain ⟨u', a, rfl⟩ : ∃ u' a, u = u' ++ [a] := ⟨u.dropLast, u.getLast hu0, (List.dropLast_concat_getLast hu0).symm⟩
  obtain ⟨b, v, rfl⟩ : ∃ b v', v = b :: v' := by
    cases v with
    | nil => exact absurd rfl hv0
    | cons b v => exact ⟨b, v, rfl⟩
  have ha := hu a (by simp)
  have hb := hv b (by simp)
  have hrun : ∀ w : List Char, (∀ c ∈ w, gcbOf c = .RegionalIndicator) → (flags (rctx w)).ri = (w.length % 2 == 1) := by
    intro w hw
    have := flags_ri_run [] (by intro c post h; cases h) (rctx w) (by
      intro x hx
      unfold rctx at hx
      rw [List.mem_reverse, List.mem_map] at hx
      obtain ⟨c, h1, rfl⟩ := hx
      exact hw c h1)
    rw [List.append_nil] at this
    rw [this]
    simp [rctx]
  rw [show r :: (u' ++ [a]) = r :: u' ++ [a] from rfl, charBoundary_iff, charBoundary_iff, breakB_ri _ (ucd_consistent _) ha hb, breakB_ri _ (ucd_consistent _) ha hb,
    hrun _ hu, hrun (r :: u' ++ [a]) (by
      intro c hc
      rw [List.cons_append] at hc
      rcases List.mem_cons.mp hc with rfl | hc
      · exact hr
      · exact hu c hc)]
  simp only [List.length_append, List.length_cons, List.length_nil, Bool.not_eq_true', beq_eq_false_iff_ne, ne_eq]
  omega

/-- "é" is inserted into broken bytes before "b" followed by two marks; the text from "b" on keeps its last tokens. -/
example : tokens ([0xFF] ++ utf8 ['b'] ++ utf8 ['\u0301', 'c', '\r', '\n']) =
      .ok [[0xFF], utf8 ['b', '\u0301'], utf8 ['c'], utf8 ['\r', '\n']] ∧
    tokens (utf8 ['b'] ++ utf8 ['\u0301', 'c', '\r', '\n']) = .ok [utf8 ['b', '\u0301'], utf8 ['c'], utf8 ['\r', '\n']] ∧
    gcbOf 'b' = .Other := by decide +kernel
/-- Marks do not hide the past: whether a consonant follows its virama depends on what is before the virama. -/
example : gcbOf '\u094D' = .Extend ∧
    tokens (utf8 ['\u0915'] ++ utf8 ['\u094D'] ++ utf8 ['\u0937']) = .ok [utf8 ['\u0915', '\u094D', '\u0937']] ∧
    tokens (utf8 ['\u094D'] ++ utf8 ['\u0937']) = .ok [utf8 ['\u094D'], utf8 ['\u0937']] := by decide +kernel
/-- After "ab" with "x" put before "c" a token of "ab" is kept, and so are all tokens after "c". -/
example : tokens (utf8 ['a', 'b']) = .ok [[0x61], [0x62]] ∧ tokens (utf8 ['c'] ++ utf8 ['\u0308', 'd']) = .ok [utf8 ['c', '\u0308'], utf8 ['d']] ∧
    tokens (utf8 ['a', 'b'] ++ utf8 ['\u0301'] ++ utf8 ['c'] ++ utf8 ['\u0308', 'd']) =
      .ok ([[0x61]] ++ [utf8 ['b', '\u0301'], utf8 ['c', '\u0308']] ++ [utf8 ['d']]) := by decide +kernel
example : gcbOf (Char.ofNat 0x1F1E9) = .RegionalIndicator := by decide +kernel

end Textseg.Props
