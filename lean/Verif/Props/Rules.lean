import Verif.Proofs.BreakB
import Verif.Proofs.Ascii
/-!
# Consequences of the rules, as statements about the tokens of texts

`tokens (utf8 text) = .ok toks`, and `CutAt toks (utf8 before).length` says that there is a token boundary after `before`.
-/

namespace Textseg
open Spec

theorem cut_iff {pre : List Char} {a b : Char} {post : List Char} {toks : List (List UInt8)}
    (ht : tokens (utf8 (pre ++ [a] ++ b :: post)) = .ok toks) :
    CutAt toks (utf8 (pre ++ [a])).length ↔
      breakB (flags (rctx (pre ++ [a]))) (ucd a.val.toNat) (ucd b.val.toNat) = true := by
  rw [cutAt_text ht (by simp) (by simp), charBoundary_iff]

theorem rctx_snoc (pre : List Char) (a : Char) : rctx (pre ++ [a]) = ucd a.val.toNat :: rctx pre := by
  simp [rctx]

theorem rctx_append (pre xs : List Char) : rctx (pre ++ xs) = rctx xs ++ rctx pre := by
  simp [rctx]

/-- To show that a part of a text is unbroken it is enough to look at neighbours. -/
theorem unbroken_of {pre mid post : List Char} {toks : List (List UInt8)}
    (ht : tokens (utf8 (pre ++ mid ++ post)) = .ok toks)
    (h : ∀ u a b v, mid = u ++ [a] ++ b :: v →
      breakB (flags (rctx (pre ++ u ++ [a]))) (ucd a.val.toNat) (ucd b.val.toNat) = false) : Unbroken toks pre mid := by
  intro u v hm hu hv
  obtain ⟨u', a, rfl⟩ : ∃ u' a, u = u' ++ [a] := ⟨u.dropLast, u.getLast hu, (List.dropLast_concat_getLast hu).symm⟩
  match v, hv with
  | b :: v, _ =>
    have := @cut_iff (pre ++ u') a b (v ++ post) toks (by rw [← ht, hm]; simp)
    rw [← List.append_assoc, this, h u' a b v hm]
    simp

theorem consistent_char (c : Char) : (ucd c.val.toNat).Consistent := ucd_consistent _

end Textseg

namespace Textseg.Props
open Textseg Spec

/-! ## C15 -/

/-- C15: CR LF is never separated. -/
theorem C15_crlf_kept (pre post : List Char) (a b : Char) (ha : gcbOf a = .CR) (hb : gcbOf b = .LF)
    (toks : List (List UInt8)) (ht : tokens (utf8 (pre ++ [a] ++ b :: post)) = .ok toks) :
    ¬ CutAt toks (utf8 (pre ++ [a])).length := by
  rw [cut_iff ht, breakB_crlf _ ha hb]
  simp

/-- C15: there is a boundary on both sides of every other CR, LF or Control. -/
theorem C15_control_separated (pre post : List Char) (a b : Char) (hn : ¬ (gcbOf a = .CR ∧ gcbOf b = .LF))
    (hc : isCtlChar a ∨ isCtlChar b)
    (toks : List (List UInt8)) (ht : tokens (utf8 (pre ++ [a] ++ b :: post)) = .ok toks) :
    CutAt toks (utf8 (pre ++ [a])).length := by
  rw [cut_iff ht, breakB_ctl _ hn hc]

/-- C15: a token that contains a CR, LF or Control consists of that one character, or is CR LF. -/
theorem C15_control_tokens (cs : List Char) (parts : List (List Char)) (hp : parts.flatten = cs)
    (hne : ∀ p ∈ parts, p ≠ []) (ht : tokens (utf8 cs) = .ok (parts.map utf8)) :
    ∀ p ∈ parts, ∀ c ∈ p, isCtlChar c →
      p = [c] ∨ ∃ a b, p = [a, b] ∧ gcbOf a = .CR ∧ gcbOf b = .LF := by
  intro p hpm c hcp hctl
  obtain ⟨s1, s2, rfl⟩ := List.append_of_mem hpm
  -- no cut strictly inside `p`
  have key : ∀ u a b v, p = u ++ [a] ++ b :: v → ¬ (gcbOf a = .CR ∧ gcbOf b = .LF) → ¬ (isCtlChar a ∨ isCtlChar b) := by
    intro u a b v he hn hc
    have hpre : cs = (s1.flatten ++ u) ++ [a] ++ b :: (v ++ s2.flatten) := by rw [← hp, he]; simp
    rw [hpre] at ht
    have hcut := C15_control_separated _ _ a b hn hc _ ht
    obtain ⟨k, hk⟩ := hcut
    have hlen : ∀ (l : List (List Char)), (l.map utf8).flatten = utf8 l.flatten := by
      intro l
      induction l with
      | nil => rfl
      | cons x l ih => rw [List.map_cons, List.flatten_cons, ih, List.flatten_cons, utf8, utf8, utf8, List.flatMap_append]
    rw [← List.map_take, hlen] at hk
    have happ : ∀ x y : List Char, (utf8 (x ++ y)).length = (utf8 x).length + (utf8 y).length := by
      intro x y; rw [utf8, List.flatMap_append, List.length_append]; rfl
    have hpos : ∀ (x : Char) (y : List Char), 0 < (utf8 (x :: y)).length := by
      intro x y
      rw [utf8, List.flatMap_cons, List.length_append]
      have := (isSeq_encode x).length_pos
      omega
    have hmono : ∀ j k : Nat, j ≤ k → (utf8 ((s1 ++ p :: s2).take j).flatten).length ≤
        (utf8 ((s1 ++ p :: s2).take k).flatten).length := by
      intro j k hjk
      have : (s1 ++ p :: s2).take j = ((s1 ++ p :: s2).take k).take j := by rw [List.take_take]; congr 1; omega
      rw [this]
      conv => rhs; rw [flatten_take_prefix ((s1 ++ p :: s2).take k) j, happ]
      omega
    by_cases hks : k ≤ s1.length
    · have := hmono _ _ hks
      rw [List.take_left, ← hk, happ, happ] at this
      have := hpos a []
      omega
    · have := hmono (s1.length + 1) k (by omega)
      rw [← hk, List.take_append, List.take_of_length_le (by omega), Nat.add_sub_cancel_left] at this
      simp only [List.take_succ_cons, List.take_zero, List.flatten_append, List.flatten_cons, List.flatten_nil,
        List.append_nil] at this
      rw [he] at this
      simp only [happ] at this
      have := hpos b v
      omega
  obtain ⟨x, y, hxy⟩ := List.append_of_mem hcp
  cases y with
  | nil =>
    rcases List.eq_nil_or_concat x with rfl | ⟨x', a, rfl⟩
    · left; simpa using hxy
    · right
      rw [List.concat_eq_append] at hxy
      have h1 := key x' a c [] hxy
      have h2 : gcbOf a = .CR ∧ gcbOf c = .LF := by
        refine Classical.byContradiction fun h => h1 h (Or.inr hctl)
      rcases List.eq_nil_or_concat x' with rfl | ⟨x'', a', rfl⟩
      · exact ⟨a, c, by simpa using hxy, h2⟩
      · rw [List.concat_eq_append] at hxy
        have h3 := key x'' a' a [c] (by rw [hxy]; simp)
        exact absurd (Or.inr (Or.inr (Or.inl h2.1))) (h3 (by rw [h2.1]; simp))
  | cons b y =>
    have h1 := key x c b y (by rw [hxy]; simp)
    have h2 : gcbOf c = .CR ∧ gcbOf b = .LF := by
      refine Classical.byContradiction fun h => h1 h (Or.inl hctl)
    right
    rcases List.eq_nil_or_concat x with rfl | ⟨x', a, rfl⟩
    · cases y with
      | nil => exact ⟨c, b, by simpa using hxy, h2⟩
      | cons d y =>
        have h3 := key [c] b d y (by rw [hxy]; rfl)
        exact absurd (Or.inl (Or.inr (Or.inr h2.2))) (h3 (by rw [h2.2]; simp))
    · rw [List.concat_eq_append] at hxy
      have h3 := key x' a c (b :: y) (by rw [hxy])
      exact absurd (Or.inr (Or.inr (Or.inl h2.1))) (h3 (by rw [h2.1]; simp))

/-- The hypotheses of C15 hold: CR, LF, and U+0001 (Control) before ACUTE ACCENT. -/
example : gcbOf '\r' = .CR ∧ gcbOf '\n' = .LF ∧ gcbOf '\x01' = .Control ∧
    tokens (utf8 ['a', '\r', '\n', '\x01', '\u0301']) = .ok ([['a'], ['\r', '\n'], ['\x01'], ['\u0301']].map utf8) := by
  decide +kernel

/-! ## C16 -/

/-- C16: no boundary before an Extend, ZWJ or SpacingMark character, except after CR, LF or Control. -/
theorem C16_marks_join (pre post : List Char) (a b : Char) (ha : ¬ isCtlChar a)
    (hb : gcbOf b = .Extend ∨ gcbOf b = .ZWJ ∨ gcbOf b = .SpacingMark)
    (toks : List (List UInt8)) (ht : tokens (utf8 (pre ++ [a] ++ b :: post)) = .ok toks) :
    ¬ CutAt toks (utf8 (pre ++ [a])).length := by
  rw [cut_iff ht, breakB_mark _ ha hb]
  simp

/-- C16: no boundary after a Prepend character, except before CR, LF or Control. -/
theorem C16_prepend_joins (pre post : List Char) (a b : Char) (ha : gcbOf a = .Prepend) (hb : ¬ isCtlChar b)
    (toks : List (List UInt8)) (ht : tokens (utf8 (pre ++ [a] ++ b :: post)) = .ok toks) :
    ¬ CutAt toks (utf8 (pre ++ [a])).length := by
  rw [cut_iff ht, breakB_prepend _ ha hb]
  simp

/-- C16: a base (anything but CR, LF, Control) and any number of combining marks after it lie in one token. -/
theorem C16_base_and_marks (pre post : List Char) (base : Char) (marks : List Char) (hbase : ¬ isCtlChar base)
    (hm : ∀ m ∈ marks, gcbOf m = .Extend ∨ gcbOf m = .ZWJ ∨ gcbOf m = .SpacingMark)
    (toks : List (List UInt8)) (ht : tokens (utf8 (pre ++ base :: marks ++ post)) = .ok toks) :
    Unbroken toks pre (base :: marks) := by
  refine unbroken_of ht ?_
  intro u a b v he
  have hb : gcbOf b = .Extend ∨ gcbOf b = .ZWJ ∨ gcbOf b = .SpacingMark := by
    cases u with
    | nil => simp at he; exact hm b (by simp [he.2])
    | cons x u => simp at he; exact hm b (by simp [he.2])
  have ha : ¬ isCtlChar a := by
    cases u with
    | nil => simp at he; rw [← he.1]; exact hbase
    | cons x u =>
      simp at he
      have := hm a (by simp [he.2])
      unfold gcbOf at this
      rcases this with h | h | h <;> rw [isCtlChar, CharProps.isControl, h] <;> simp
  exact breakB_mark _ ha hb

/-- C16 on arbitrary bytes: between two neighbouring sequences of which the second is a combining mark, or the first is
Prepend, there is no boundary, unless the other one is a control. -/
theorem C16_on_bytes (data : List UInt8) (before after : List Piece) (a b : List UInt8)
    (hps : Pieces data (before ++ [.seq a] ++ .seq b :: after))
    (h : ((seqProps b).gcb = .Extend ∨ (seqProps b).gcb = .ZWJ ∨ (seqProps b).gcb = .SpacingMark) ∧
        ¬ (seqProps a).isControl ∨ (seqProps a).gcb = .Prepend ∧ ¬ (seqProps b).isControl)
    (toks : List (List UInt8)) (ht : tokens data = .ok toks) :
    ¬ CutAt toks (piecesBytes (before ++ [.seq a])).length := by
  rw [cutAt_pieces hps ht (by simp) (by simp), pieceBoundary_seq, ctx_seq, brk]
  rcases h with ⟨hb, ha⟩ | ⟨ha, hb⟩
  · rw [breakB_mark _ ha hb]; simp
  · rw [breakB_prepend _ ha hb]; simp

/-- The hypotheses hold: "e" and ACUTE ACCENT (Extend), DEVANAGARI SIGN VISARGA (SpacingMark), ZWJ;
ARABIC NUMBER SIGN (Prepend). -/
example : gcbOf '\u0301' = .Extend ∧ gcbOf '\u0903' = .SpacingMark ∧ gcbOf '\u200D' = .ZWJ ∧ ¬ isCtlChar 'e' ∧
    gcbOf '\u0600' = .Prepend := by
  simp only [isCtlChar, ← isCtl_iff]
  decide +kernel

/-! ## C17 -/

/-- C17: a Hangul syllable block, however long, lies in one token. -/
theorem C17_hangul_unbroken (pre js post : List Char) (hj : IsHangulBlock js)
    (toks : List (List UInt8)) (ht : tokens (utf8 (pre ++ js ++ post)) = .ok toks) : Unbroken toks pre js := by
  refine unbroken_of ht ?_
  intro u a b v he
  suffices h : (gcbOf a = .L ∧ (gcbOf b = .L ∨ gcbOf b = .V ∨ gcbOf b = .LV ∨ gcbOf b = .LVT)) ∨
      ((gcbOf a = .LV ∨ gcbOf a = .V) ∧ (gcbOf b = .V ∨ gcbOf b = .T)) ∨
      ((gcbOf a = .LVT ∨ gcbOf a = .T) ∧ gcbOf b = .T) by
    exact breakB_hangul _ h
  -- neighbours in a list of such a shape
  have adj : ∀ (x y : List Char), u ++ [a] ++ b :: v = x ++ y →
      (a ∈ x ∧ b ∈ x ∧ ∃ v', x = u ++ [a] ++ b :: v') ∨ (x = u ++ [a] ∧ y = b :: v) ∨
      (a ∈ y ∧ b ∈ y ∧ ∃ u', y = u' ++ [a] ++ b :: v) := by
    intro x y hxy
    rcases List.append_eq_append_iff.mp hxy with ⟨z, h1, h2⟩ | ⟨z, h1, h2⟩
    · cases z with
      | nil => right; left; simp at h1 h2; exact ⟨h1, h2.symm⟩
      | cons w z =>
        left
        rw [List.cons_append, List.cons.injEq] at h2
        obtain ⟨rfl, h2⟩ := h2
        exact ⟨by simp [h1], by simp [h1], z, h1⟩
    · rcases List.eq_nil_or_concat z with rfl | ⟨z', w, rfl⟩
      · right; left; simp at h1 h2; exact ⟨h1.symm, h2⟩
      · right; right
        rw [List.concat_eq_append] at h1 h2
        rw [← List.append_assoc] at h1
        obtain ⟨h3, h4⟩ := List.append_inj' h1 rfl
        cases h4
        exact ⟨by simp [h2], by simp [h2], z', by simp [h2]⟩
  obtain ⟨ls, mid, ts, h1, hl, htt, hmid⟩ := hj
  rw [he, List.append_assoc ls] at h1
  rcases adj ls (mid ++ ts) h1 with ⟨ha, hb, _⟩ | ⟨h2, h3⟩ | ⟨_, _, u', h2⟩
  · exact Or.inl ⟨hl a ha, Or.inl (hl b hb)⟩
  · have ha : gcbOf a = .L := hl a (by simp [h2])
    left
    refine ⟨ha, ?_⟩
    rcases hmid with ⟨hne, hm⟩ | ⟨c, vs, rfl, hc, hvs⟩ | ⟨c, rfl, hc⟩ | ⟨rfl, hor⟩
    · match mid, hne with
      | c :: mid, _ =>
        simp at h3
        rw [← h3.1]; exact Or.inr (Or.inl (hm c (by simp)))
    · simp at h3
      rw [← h3.1]; exact Or.inr (Or.inr (Or.inl hc))
    · simp at h3
      rw [← h3.1]; exact Or.inr (Or.inr (Or.inr hc))
    · rcases hor with rfl | rfl
      · simp at h2
      · simp at h3
  · clear h1 he hl
    have h2' := h2.symm
    -- apply the same case distinction to `mid ++ ts`
    rcases List.append_eq_append_iff.mp h2' with ⟨z, h1, h3⟩ | ⟨z, h1, h3⟩
    · -- mid = u' ++ [a] ++ z
      cases z with
      | nil =>
        simp at h1 h3
        have hb : gcbOf b = .T := htt b (by simp [← h3])
        rcases hmid with ⟨_, hm⟩ | ⟨c, vs, rfl, hc, hvs⟩ | ⟨c, rfl, hc⟩ | ⟨rfl, _⟩
        · exact Or.inr (Or.inl ⟨Or.inr (hm a (by simp [h1])), Or.inr hb⟩)
        · right; left
          refine ⟨?_, Or.inr hb⟩
          cases u' with
          | nil => simp at h1; rw [← h1.1]; exact Or.inl hc
          | cons w u' => simp at h1; exact Or.inr (hvs a (by simp [h1.2]))
        · right; right
          cases u' with
          | nil => simp at h1; rw [← h1]; exact ⟨Or.inl hc, hb⟩
          | cons w u' => simp at h1
        · simp at h1
      | cons w z =>
        rw [List.cons_append, List.cons.injEq] at h3
        obtain ⟨rfl, h3⟩ := h3
        right; left
        rcases hmid with ⟨_, hm⟩ | ⟨c, vs, rfl, hc, hvs⟩ | ⟨c, rfl, hc⟩ | ⟨rfl, _⟩
        · exact ⟨Or.inr (hm a (by simp [h1])), Or.inl (hm b (by simp [h1]))⟩
        · cases u' with
          | nil =>
            simp at h1
            rw [← h1.1]
            exact ⟨Or.inl hc, Or.inl (hvs b (by simp [h1.2]))⟩
          | cons w u' =>
            simp at h1
            exact ⟨Or.inr (hvs a (by simp [h1.2])), Or.inl (hvs b (by simp [h1.2]))⟩
        · have := congrArg List.length h1
          simp at this
          omega
        · simp at h1
    · rcases List.eq_nil_or_concat z with rfl | ⟨z', w, rfl⟩
      · simp at h1 h3
        have hb : gcbOf b = .T := htt b (by simp [h3])
        rcases hmid with ⟨_, hm⟩ | ⟨c, vs, rfl, hc, hvs⟩ | ⟨c, rfl, hc⟩ | ⟨rfl, _⟩
        · exact Or.inr (Or.inl ⟨Or.inr (hm a (by simp [← h1])), Or.inr hb⟩)
        · right; left
          refine ⟨?_, Or.inr hb⟩
          cases u' with
          | nil => simp at h1; rw [h1.1]; exact Or.inl hc
          | cons w u' => simp at h1; exact Or.inr (hvs a (by simp [← h1.2]))
        · right; right
          cases u' with
          | nil => simp at h1; rw [h1]; exact ⟨Or.inl hc, hb⟩
          | cons w u' => simp at h1
        · simp at h1
      · rw [List.concat_eq_append] at h1 h3
        rw [← List.append_assoc] at h1
        obtain ⟨_, h4⟩ := List.append_inj' h1 rfl
        cases h4
        exact Or.inr (Or.inr ⟨Or.inr (htt a (by simp [h3])), htt b (by simp [h3])⟩)

/-- The hypothesis holds: two leading consonants, a vowel, a trailing consonant; a precomposed syllable with a trailing
consonant. -/
example : IsHangulBlock ['\u1112', '\u1112', '\u1161', '\u11AB'] ∧ IsHangulBlock ['가', '\u11AB'] := by
  refine ⟨⟨['\u1112', '\u1112'], ['\u1161'], ['\u11AB'], rfl, ?_, ?_, Or.inl ⟨by simp, ?_⟩⟩,
    ⟨[], ['가'], ['\u11AB'], rfl, by simp, ?_, Or.inr (Or.inl ⟨'가', [], rfl, ?_, by simp⟩)⟩⟩ <;> decide +kernel

/-! ## C18 -/

/-- C18: between two consonants separated only by InCB=Extend/Linker characters there is a boundary (before the second)
exactly if no Linker is among the separators. -/
theorem C18_indic_conjuncts (pre post : List Char) (c1 c2 : Char) (xs : List Char) (h1 : incbOf c1 = .Consonant)
    (h2 : incbOf c2 = .Consonant) (hx : ∀ x ∈ xs, incbOf x = .Extend ∨ incbOf x = .Linker)
    (toks : List (List UInt8)) (ht : tokens (utf8 (pre ++ c1 :: xs ++ c2 :: post)) = .ok toks) :
    CutAt toks (utf8 (pre ++ c1 :: xs)).length ↔ ¬ ∃ x ∈ xs, incbOf x = .Linker := by
  -- the last character before `c2`
  obtain ⟨u, a, hua, ha⟩ : ∃ u a, c1 :: xs = u ++ [a] ∧ (ucd a.val.toNat).incb ≠ .None := by
    have hne : c1 :: xs ≠ [] := by simp
    refine ⟨(c1 :: xs).dropLast, (c1 :: xs).getLast hne, (List.dropLast_concat_getLast hne).symm, ?_⟩
    rcases List.mem_cons.mp (List.getLast_mem hne) with h | h
    · rw [h]; unfold incbOf at h1; rw [h1]; simp
    · have := hx _ h
      unfold incbOf at this
      rcases this with h | h <;> rw [h] <;> simp
  rw [hua] at ht ⊢
  rw [← List.append_assoc] at ht ⊢
  rw [cut_iff ht, breakB_consonant _ (consistent_char a) (consistent_char c2) ha h2, List.append_assoc, ← hua]
  have hr : rctx (pre ++ c1 :: xs) = rctx xs ++ ucd c1.val.toNat :: rctx pre := by
    rw [rctx_append, show c1 :: xs = [c1] ++ xs from rfl, rctx_append]
    simp [rctx]
  have := (flags_lnk_run (rctx pre) (ucd c1.val.toNat) h1 (rctx xs) (by
    intro x hxm
    simp only [rctx, List.mem_reverse, List.mem_map] at hxm
    obtain ⟨y, hy, rfl⟩ := hxm
    exact hx y hy)).2
  rw [hr, Bool.not_eq_true', Bool.eq_false_iff, ne_eq, this]
  refine not_congr ?_
  simp only [rctx, List.mem_reverse, List.mem_map]
  constructor
  · rintro ⟨_, ⟨y, hy, rfl⟩, h⟩; exact ⟨y, hy, h⟩
  · rintro ⟨y, hy, h⟩; exact ⟨_, ⟨y, hy, rfl⟩, h⟩

/-- The hypotheses hold: KA, VIRAMA (Linker), NUKTA (Extend), SSA. -/
example : incbOf 'क' = .Consonant ∧ incbOf 'ष' = .Consonant ∧ incbOf '\u094D' = .Linker ∧ incbOf '\u093C' = .Extend := by
  decide +kernel

/-! ## C19 -/

/-- C19: between ZWJ and a pictograph there is no boundary exactly if the ZWJ is preceded by `ExtPict Extend*`. -/
theorem C19_emoji_zwj (pre post : List Char) (z p : Char) (hz : gcbOf z = .ZWJ) (hp : isPict p)
    (toks : List (List UInt8)) (ht : tokens (utf8 (pre ++ [z] ++ p :: post)) = .ok toks) :
    ¬ CutAt toks (utf8 (pre ++ [z])).length ↔
      ∃ pre' q xs, pre = pre' ++ q :: xs ∧ isPict q ∧ ∀ x ∈ xs, gcbOf x = .Extend := by
  rw [cut_iff ht, breakB_pict _ (consistent_char p) hz hp, rctx_snoc]
  have hz' : ((ucd z.val.toNat).gcb == GCB.ZWJ) = true := beq_iff_eq.mpr hz
  rw [flags, Flags.next, hz', Bool.true_and, Bool.not_eq_true', Bool.not_eq_false, emo_iff]
  constructor
  · rintro ⟨xs, q, R, h1, h2, h3⟩
    have h1 : pre.map (fun c => ucd c.val.toNat) = R.reverse ++ q :: xs.reverse := by
      have := congrArg List.reverse h1
      simp only [rctx, List.reverse_reverse] at this
      rw [this]; simp
    obtain ⟨l1, l2, h4, h5, h6⟩ := List.map_eq_append_iff.mp h1
    obtain ⟨q', xs', h7, h8, h9⟩ := List.map_eq_cons_iff.mp h6
    refine ⟨l1, q', xs', by rw [h4, h7], ?_, ?_⟩
    · show (ucd q'.val.toNat).extPict = true
      rw [h8]; exact h2
    · intro x hx
      show (ucd x.val.toNat).gcb = .Extend
      apply h3
      rw [← List.mem_reverse, ← h9]
      exact List.mem_map_of_mem hx
  · rintro ⟨pre', q, xs, rfl, h2, h3⟩
    refine ⟨rctx xs, ucd q.val.toNat, rctx pre', ?_, h2, ?_⟩
    · rw [rctx_append, show q :: xs = [q] ++ xs from rfl, rctx_append]
      simp [rctx]
    · intro x hx
      simp only [rctx, List.mem_reverse, List.mem_map] at hx
      obtain ⟨y, hy, rfl⟩ := hx
      exact h3 y hy

/-- C19: an emoji ZWJ sequence, with any number of elements, lies in one token. -/
theorem C19_zwj_sequence_unbroken (pre s post : List Char) (hs : IsEmojiZwj s)
    (toks : List (List UInt8)) (ht : tokens (utf8 (pre ++ s ++ post)) = .ok toks) : Unbroken toks pre s := by
  refine unbroken_of ht ?_
  clear ht
  have notctl : ∀ (a : Char), isPict a ∨ gcbOf a = .Extend ∨ gcbOf a = .ZWJ → ¬ (ucd a.val.toNat).isControl := by
    intro a h
    have : (ucd a.val.toNat).gcb = .Other ∨ (ucd a.val.toNat).gcb = .Extend ∨ (ucd a.val.toNat).gcb = .ZWJ := by
      rcases h with h | h | h
      · exact Or.inl ((consistent_char a).pict h).1
      · exact Or.inr (Or.inl h)
      · exact Or.inr (Or.inr h)
    rcases this with h | h | h <;> (rw [CharProps.isControl, h]; decide)
  have hall : ∀ s, IsEmojiZwj s → ∀ a ∈ s, isPict a ∨ gcbOf a = .Extend ∨ gcbOf a = .ZWJ := by
    intro s hs
    induction hs with
    | element p xs h1 h2 =>
      intro a ha
      rcases List.mem_cons.mp ha with rfl | ha
      · exact Or.inl h1
      · exact Or.inr (Or.inl (h2 a ha))
    | join s z p xs h1 h2 h3 h4 ih =>
      intro a ha
      rcases List.mem_append.mp ha with ha | ha
      · exact ih a ha
      · rcases List.mem_cons.mp ha with rfl | ha
        · exact Or.inr (Or.inr h2)
        · rcases List.mem_cons.mp ha with rfl | ha
          · exact Or.inl h3
          · exact Or.inr (Or.inl (h4 a ha))
  -- the context at the end of a sequence
  have hemo : ∀ s, IsEmojiZwj s → (flags (rctx (pre ++ s))).emo = true := by
    have aux : ∀ w p xs, isPict p → (∀ x ∈ xs, gcbOf x = .Extend) → (flags (rctx (w ++ p :: xs))).emo = true := by
      intro w p xs h1 h2
      have hr : rctx (w ++ p :: xs) = rctx xs ++ ucd p.val.toNat :: rctx w := by
        rw [rctx_append, show p :: xs = [p] ++ xs from rfl, rctx_append]
        simp [rctx]
      rw [hr]
      refine flags_emo_run _ _ h1 _ ?_
      intro x hx
      simp only [rctx, List.mem_reverse, List.mem_map] at hx
      obtain ⟨y, hy, rfl⟩ := hx
      exact h2 y hy
    intro s hs
    cases hs with
    | element p xs h1 h2 => exact aux _ _ _ h1 h2
    | join s z p xs h1 h2 h3 h4 =>
      have := aux (pre ++ (s ++ [z])) p xs h3 h4
      simpa using this
  induction hs with
  | element p xs h1 h2 =>
    intro u a b v he
    have hb : gcbOf b = .Extend := by
      cases u with
      | nil => simp at he; exact h2 b (by simp [he.2])
      | cons x u => simp at he; exact h2 b (by simp [he.2])
    exact breakB_mark _ (notctl a (hall _ (.element p xs h1 h2) a (by rw [he]; simp))) (Or.inl hb)
  | join s z p xs h1 h2 h3 h4 ih =>
    intro u a b v he
    have hctl := notctl a (hall _ (.join s z p xs h1 h2 h3 h4) a (by rw [he]; simp))
    rcases List.append_eq_append_iff.mp he with ⟨w, h5, h6⟩ | ⟨w, h5, h6⟩
    · -- u ++ [a] = s ++ w, z :: p :: xs = w ++ b :: v
      match w with
      | [] =>
        simp at h6
        rw [← h6.1]
        exact breakB_mark _ hctl (Or.inr (Or.inl h2))
      | [w1] =>
        simp at h6
        have h7 := List.append_inj' h5 rfl
        obtain ⟨h7, h8⟩ := h7
        cases h8
        rw [← h6.2.1]
        rw [← h6.1, breakB_pict _ (consistent_char p) h2 h3, rctx_snoc]
        have hz' : ((ucd z.val.toNat).gcb == GCB.ZWJ) = true := beq_iff_eq.mpr h2
        rw [flags, Flags.next, hz', Bool.true_and, h7, hemo s h1]
        rfl
      | w1 :: w2 :: w =>
        simp at h6
        exact breakB_mark _ hctl (Or.inl (h4 b (by simp [h6.2.2])))
    · -- s = u ++ [a] ++ w, b :: v = w ++ (z :: p :: xs)
      match w with
      | [] =>
        simp at h6
        rw [h6.1]
        exact breakB_mark _ hctl (Or.inr (Or.inl h2))
      | w1 :: w =>
        simp at h6
        exact ih u a b w (by rw [h5, h6.1])

/-- The hypotheses hold: family of three with a variation selector. -/
example : IsEmojiZwj ['👩', '\u200D', '❤', '\uFE0F', '\u200D', '👩'] := by
  refine .join ['👩', '\u200D', '❤', '\uFE0F'] '\u200D' '👩' [] (.join ['👩'] '\u200D' '❤' ['\uFE0F']
    (.element '👩' [] ?_ (by simp)) ?_ ?_ ?_) ?_ ?_ (by simp) <;> decide +kernel

/-! ## C20 -/

/-- C20: a maximal run of regional indicators is cut exactly after every second one, counted from its start. -/
theorem C20_flags_pair_up (pre rs post : List Char) (hrs : ∀ r ∈ rs, gcbOf r = .RegionalIndicator)
    (hpre : ∀ w c, pre = w ++ [c] → gcbOf c ≠ .RegionalIndicator)
    (toks : List (List UInt8)) (ht : tokens (utf8 (pre ++ rs ++ post)) = .ok toks) (i : Nat) (h0 : 0 < i)
    (hi : i < rs.length) : CutAt toks (utf8 (pre ++ rs.take i)).length ↔ i % 2 = 0 := by
  have hsplit : rs = rs.take i ++ rs.drop i := (List.take_append_drop i rs).symm
  have hlt : (rs.take i).length = i := by rw [List.length_take]; omega
  have hne : rs.take i ≠ [] := by intro h; rw [h] at hlt; simp at hlt; omega
  obtain ⟨u, a, hua⟩ : ∃ u a, rs.take i = u ++ [a] :=
    ⟨(rs.take i).dropLast, (rs.take i).getLast hne, (List.dropLast_concat_getLast hne).symm⟩
  cases hdr : rs.drop i with
  | nil =>
    have := congrArg List.length hdr
    rw [List.length_drop] at this
    simp at this; omega
  | cons b v =>
    rw [hsplit, hdr, hua] at ht
    have ha : gcbOf a = .RegionalIndicator := hrs a (by rw [hsplit, hua]; simp)
    have hb : gcbOf b = .RegionalIndicator := hrs b (by rw [hsplit, hdr]; simp)
    have ht' : tokens (utf8 ((pre ++ u) ++ [a] ++ b :: (v ++ post))) = .ok toks := by rw [← ht]; simp
    have h1 := cut_iff ht'
    rw [List.append_assoc, ← hua] at h1
    rw [h1, breakB_ri _ (consistent_char b) ha hb, rctx_append, flags_ri_run, Bool.not_eq_true', beq_eq_false_iff_ne]
    · rw [rctx, List.length_reverse, List.length_map, hlt]; omega
    · intro c post' hc
      rcases List.eq_nil_or_concat pre with rfl | ⟨w, c', rfl⟩
      · simp [rctx] at hc
      · rw [List.concat_eq_append, rctx_snoc] at hc
        have := hpre w c' (List.concat_eq_append)
        rw [List.cons.injEq] at hc
        rw [← hc.1]; exact this
    · intro r hr
      simp only [rctx, List.mem_reverse, List.mem_map] at hr
      obtain ⟨y, hy, rfl⟩ := hr
      exact hrs y (List.mem_of_mem_take hy)

/-- C20: a text of regional indicators only: the tokens are the pairs, so there are ⌈n/2⌉ of them. -/
theorem C20_flag_tokens (rs : List Char) (hrs : ∀ r ∈ rs, gcbOf r = .RegionalIndicator) :
    tokens (utf8 rs) = .ok ((pairUp rs).map utf8) ∧ (pairUp rs).length = (rs.length + 1) / 2 := by
  have hlen : ∀ (n : Nat) (l : List Char), l.length = n → (pairUp l).length = (l.length + 1) / 2 := by
    intro n
    induction n using Nat.strongRecOn with
    | ind n ih =>
      intro l hl
      match l with
      | [] => rfl
      | [a] => simp [pairUp]
      | a :: b :: l =>
        rw [pairUp, List.length_cons, ih l.length (by simp at hl; omega) l rfl]
        simp; omega
  refine ⟨?_, hlen _ rs rfl⟩
  -- the pairs are the segmentation
  have hB : ∀ (before : List Char) (a b : Char) (post : List Char), (∀ r ∈ before ++ [a], gcbOf r = .RegionalIndicator) →
      gcbOf b = .RegionalIndicator → (CharBoundary (before ++ [a]) (b :: post) ↔ (before ++ [a]).length % 2 = 0) := by
    intro before a b post h1 h2
    rw [charBoundary_iff, breakB_ri _ (consistent_char b) (h1 a (by simp)) h2]
    have := flags_ri_run [] (by simp) (rctx (before ++ [a])) (by
      intro r hr
      simp only [rctx, List.mem_reverse, List.mem_map] at hr
      obtain ⟨y, hy, rfl⟩ := hr
      exact h1 y hy)
    rw [List.append_nil] at this
    rw [this, Bool.not_eq_true', beq_eq_false_iff_ne, rctx, List.length_reverse, List.length_map]
    omega
  have hseg : ∀ (n : Nat) (l pre : List Char), l.length = n → (∀ r ∈ pre ++ l, gcbOf r = .RegionalIndicator) →
      pre.length % 2 = 0 → IsSegmentation (fun b a => CharBoundary (pre ++ b) a) l (pairUp l) := by
    intro n
    induction n using Nat.strongRecOn with
    | ind n ih =>
      intro l pre hl hri hev
      match l with
      | [] => exact isSegmentation_nil _
      | [a] =>
        have := isSegmentation_cons (B := fun b a => CharBoundary (pre ++ b) a) (c := [a]) (rest := []) (segs := [])
          (by simp) ?_ (by simp) (isSegmentation_nil _)
        · exact this
        · intro c1 c2 h h1 h2
          have := congrArg List.length h
          have h1 := List.length_pos_iff.mpr h1
          have h2 := List.length_pos_iff.mpr h2
          simp at this; omega
      | a :: b :: l =>
        have h3 := ih l.length (by simp at hl; omega) l (pre ++ [a, b]) rfl (by simpa using hri) (by simp; omega)
        have := isSegmentation_cons (B := fun b a => CharBoundary (pre ++ b) a) (c := [a, b]) (rest := l)
          (segs := pairUp l) (by simp) ?_ ?_ (by simpa only [List.append_assoc] using h3)
        · exact this
        · intro c1 c2 h h1 h2
          match c1, c2, h1, h2 with
          | [x], y :: c2, _, _ =>
            simp at h
            rw [h.1] at hri
            show ¬ CharBoundary (pre ++ [x]) (y :: c2 ++ l)
            rw [List.cons_append, hB pre x y _ (fun r hr => hri r (by
              rcases List.mem_append.mp hr with h | h
              · simp [h]
              · simp at h; simp [h])) (hri y (by simp [h.2.1]))]
            simp; omega
          | x :: x' :: c1, y :: c2, _, _ =>
            have := congrArg List.length h
            simp at this
        · intro hne
          match l, hne with
          | c :: l, _ =>
            show CharBoundary (pre ++ [a, b]) (c :: l)
            have := (hB (pre ++ [a]) b c l (fun r hr => hri r (by
              simp at hr
              simp; rcases hr with h | h | h <;> simp [h])) (hri c (by simp))).mpr (by simp; omega)
            simpa using this
  obtain ⟨segs, h1, h2⟩ := tokens_text rs
  rw [h2, isSegmentation_unique h1 (hseg _ rs [] rfl (by simpa using hrs) rfl)]

/-- The hypothesis holds: five regional indicators give three tokens. -/
example : (∀ r ∈ ['🇦', '🇧', '🇨', '🇩', '🇪'], gcbOf r = .RegionalIndicator) ∧
    pairUp ['🇦', '🇧', '🇨', '🇩', '🇪'] = [['🇦', '🇧'], ['🇨', '🇩'], ['🇪']] := by decide +kernel

/-! ## C21 -/

theorem ascii_pieces (d : List UInt8) (hd : ∀ b ∈ d, b < 0x80) : Pieces d (d.map fun b => .seq [b]) := by
  induction d with
  | nil => exact .nil
  | cons b d ih =>
    refine Pieces.seq [b] d _ (.one b ?_) (ih fun x hx => hd x (List.mem_cons_of_mem _ hx))
    have : b.toNat < 128 := hd b List.mem_cons_self
    show b.toNat ≤ 127
    omega

theorem ascii_props (b : UInt8) (hb : b < 0x80) : (b = 0x0D ∧ seqProps [b] = ⟨.CR, false, .None⟩) ∨
      (b = 0x0A ∧ seqProps [b] = ⟨.LF, false, .None⟩) ∨ (b ≠ 0x0D ∧ b ≠ 0x0A ∧
        (seqProps [b] = ⟨.Control, false, .None⟩ ∨ seqProps [b] = CharProps.none)) := by
  have hb' : b.toNat < 128 := hb
  rw [seqProps_one (show b ≤ 0x7F from (by show b.toNat ≤ 127; omega))]
  have key : (b.toNat = 0x0D ∧ ucd b.toNat = ⟨.CR, false, .None⟩) ∨
    (b.toNat = 0x0A ∧ ucd b.toNat = ⟨.LF, false, .None⟩) ∨ (b.toNat ≠ 0x0D ∧ b.toNat ≠ 0x0A ∧
      (ucd b.toNat = ⟨.Control, false, .None⟩ ∨ ucd b.toNat = CharProps.none)) := by
    rw [ucd_ascii hb']
    split
    · exact Or.inl ⟨by assumption, rfl⟩
    · split
      · exact Or.inr (Or.inl ⟨by assumption, rfl⟩)
      · refine Or.inr (Or.inr ⟨by assumption, by assumption, ?_⟩)
        split
        · exact Or.inl rfl
        · exact Or.inr rfl
  have hne : ∀ k : UInt8, b ≠ k ↔ b.toNat ≠ k.toNat := fun k => not_congr UInt8.toNat_inj.symm
  rcases key with ⟨h1, h2⟩ | ⟨h1, h2⟩ | ⟨h1, h2, h3⟩
  · exact Or.inl ⟨UInt8.toNat_inj.mp h1, h2⟩
  · exact Or.inr (Or.inl ⟨UInt8.toNat_inj.mp h1, h2⟩)
  · exact Or.inr (Or.inr ⟨(hne _).mpr h1, (hne _).mpr h2, h3⟩)

/-- The four kinds of ASCII character. -/
theorem ascii_break (F : Flags) (x y : CharProps)
    (hx : x = ⟨.CR, false, .None⟩ ∨ x = ⟨.LF, false, .None⟩ ∨ x = ⟨.Control, false, .None⟩ ∨ x = CharProps.none)
    (hy : y = ⟨.CR, false, .None⟩ ∨ y = ⟨.LF, false, .None⟩ ∨ y = ⟨.Control, false, .None⟩ ∨ y = CharProps.none) :
    breakB F x y = !(x.gcb == .CR && y.gcb == .LF) := by
  rcases F with ⟨f1, f2, f3, f4, f5⟩
  rcases hx with rfl | rfl | rfl | rfl <;> rcases hy with rfl | rfl | rfl | rfl <;>
    cases f1 <;> cases f2 <;> cases f3 <;> cases f4 <;> cases f5 <;> rfl

theorem ascii_brk (R : Text) (b c : UInt8) (hb : b < 0x80) (hc : c < 0x80) :
    brk (seqProps [b] :: R) (seqProps [c]) = !(b == 0x0D && c == 0x0A) := by
  have hx := ascii_props b hb
  have hy := ascii_props c hc
  generalize seqProps [b] = x at *
  generalize seqProps [c] = y at *
  rw [brk, ascii_break]
  · have h1 : (x.gcb == .CR) = (b == 0x0D) := by
      rcases hx with ⟨rfl, rfl⟩ | ⟨rfl, rfl⟩ | ⟨h1, h2, rfl | rfl⟩
      · rfl
      · rfl
      · rw [beq_eq_false_iff_ne.mpr h1]; rfl
      · rw [beq_eq_false_iff_ne.mpr h1]; rfl
    have h2 : (y.gcb == .LF) = (c == 0x0A) := by
      rcases hy with ⟨rfl, rfl⟩ | ⟨rfl, rfl⟩ | ⟨h1, h2, rfl | rfl⟩
      · rfl
      · rfl
      · rw [beq_eq_false_iff_ne.mpr h2]; rfl
      · rw [beq_eq_false_iff_ne.mpr h2]; rfl
    rw [h1, h2]
  · rcases hx with ⟨_, h⟩ | ⟨_, h⟩ | ⟨_, _, h | h⟩ <;> simp [h]
  · rcases hy with ⟨_, h⟩ | ⟨_, h⟩ | ⟨_, _, h | h⟩ <;> simp [h]

theorem firstCluster_seq (bs : List UInt8) (ps : List Piece) :
    firstCluster (.seq bs :: ps) = .seq bs :: takeCluster [seqProps bs] ps := rfl

theorem takeCluster_nil (R : Text) : takeCluster R [] = [] := by rw [takeCluster]

theorem takeCluster_stop {R : Text} {bs : List UInt8} (h : brk R (seqProps bs) = true) (ps : List Piece) :
    takeCluster R (.seq bs :: ps) = [] := by rw [takeCluster, if_pos h]

theorem takeCluster_go {R : Text} {bs : List UInt8} (h : brk R (seqProps bs) = false) (ps : List Piece) :
    takeCluster R (.seq bs :: ps) = .seq bs :: takeCluster (seqProps bs :: R) ps := by
  rw [takeCluster, if_neg (by rw [h]; exact Bool.false_ne_true)]

/-- A following ASCII character, other than LF after CR, is not taken. -/
theorem ascii_take_stop (R : Text) (b : UInt8) (hb : b < 0x80) (d : List UInt8) (hd : ∀ x ∈ d, x < 0x80)
    (hn : ¬ (b = 0x0D ∧ ∃ d', d = 0x0A :: d')) : takeCluster (seqProps [b] :: R) (d.map fun b => .seq [b]) = [] := by
  cases d with
  | nil => exact takeCluster_nil _
  | cons c d =>
    rw [List.map_cons]
    apply takeCluster_stop
    rw [ascii_brk R b c hb (hd c List.mem_cons_self), Bool.not_eq_true', Bool.and_eq_false_iff, beq_eq_false_iff_ne,
      beq_eq_false_iff_ne]
    by_cases h : b = 0x0D
    · exact Or.inr fun h' => hn ⟨h, d, by rw [h']⟩
    · exact Or.inl h

theorem asciiTokens_crlf (d : List UInt8) : asciiTokens (0x0D :: 0x0A :: d) = [0x0D, 0x0A] :: asciiTokens d := by
  rw [asciiTokens]

theorem asciiTokens_other (b : UInt8) (d : List UInt8) (hn : ¬ (b = 0x0D ∧ ∃ d', d = 0x0A :: d')) :
    asciiTokens (b :: d) = [b] :: asciiTokens d := by
  rw [asciiTokens]
  intro rest h3 h4
  exact hn ⟨h3, rest, h4⟩

theorem ascii_clusters (n : Nat) : ∀ (d : List UInt8), d.length = n → (∀ b ∈ d, b < 0x80) →
    ∃ segs, Clusters (d.map fun b => .seq [b]) segs ∧ segs.map piecesBytes = asciiTokens d := by
  induction n using Nat.strongRecOn with
  | ind n ih =>
    intro d hl hd
    match d with
    | [] => exact ⟨[], .nil, by rw [asciiTokens]; rfl⟩
    | b :: d =>
      have hb := hd b List.mem_cons_self
      by_cases hcr : b = 0x0D ∧ ∃ d', d = 0x0A :: d'
      · obtain ⟨hb0, d', rfl⟩ := hcr
        obtain ⟨segs, h1, h2⟩ := ih d'.length (by simp only [List.length_cons] at hl; omega) d' rfl
          (fun x hx => hd x (List.mem_cons_of_mem _ (List.mem_cons_of_mem _ hx)))
        have hc : (0x0A : UInt8) < 0x80 := by decide
        have hfc : firstCluster ((b :: 0x0A :: d').map fun b => .seq [b]) = [.seq [b], .seq [0x0A]] := by
          rw [List.map_cons, firstCluster_seq, List.map_cons, takeCluster_go, ascii_take_stop _ _ hc d'
            (fun x hx => hd x (List.mem_cons_of_mem _ (List.mem_cons_of_mem _ hx)))]
          · rintro ⟨h, -⟩
            exact absurd h (by decide)
          · rw [ascii_brk [] b 0x0A hb hc, hb0]; rfl
        refine ⟨[.seq [b], .seq [0x0A]] :: segs, ?_, ?_⟩
        · have := Clusters.cons ((b :: 0x0A :: d').map fun b => .seq [b]) (d'.map fun b => .seq [b]) segs
            (List.cons_ne_nil _ _) (by rw [hfc]; rfl) h1
          rwa [hfc] at this
        · rw [List.map_cons, h2, hb0, asciiTokens_crlf]; rfl
      · obtain ⟨segs, h1, h2⟩ := ih d.length (by simp only [List.length_cons] at hl; omega) d rfl
          (fun x hx => hd x (List.mem_cons_of_mem _ hx))
        have hfc : firstCluster ((b :: d).map fun b => .seq [b]) = [.seq [b]] := by
          rw [List.map_cons, firstCluster_seq, ascii_take_stop [] b hb d (fun x hx => hd x (List.mem_cons_of_mem _ hx)) hcr]
        refine ⟨[.seq [b]] :: segs, ?_, ?_⟩
        · have := Clusters.cons ((b :: d).map fun b => .seq [b]) (d.map fun b => .seq [b]) segs
            (List.cons_ne_nil _ _) (by rw [hfc]; rfl) h1
          rwa [hfc] at this
        · rw [List.map_cons, h2, asciiTokens_other b d hcr]; rfl

/-- C21: ASCII text is split into bytes, except that CR LF is one token. -/
theorem C21_ascii (data : List UInt8) (h : ∀ b ∈ data, b < 0x80) : tokens data = .ok (asciiTokens data) := by
  obtain ⟨segs, h1, h2⟩ := ascii_clusters _ data rfl h
  rw [tokens_eq (ascii_pieces data h) h1, h2]

/-- The hypothesis holds: "a", CR, LF, LF, NUL. -/
example : (∀ b ∈ [(0x61 : UInt8), 0x0D, 0x0A, 0x0A, 0x00], b < 0x80) ∧
    asciiTokens [0x61, 0x0D, 0x0A, 0x0A, 0x00] = [[0x61], [0x0D, 0x0A], [0x0A], [0x00]] := by decide

end Textseg.Props
