import Verif.Spec.Canonical
import Verif.Proofs.Cuts
import Verif.Proofs.BreakB
import Verif.Proofs.Disjoint
import Verif.Proofs.Segmentation
/-!
# Respelling a text does not move its boundaries
-/

namespace Textseg
open Spec

/-- The properties of a character. -/
abbrev pr (c : Char) : CharProps := ucd c.val.toNat

/-- The segmentation, computed: `f` and `p` are the facts about what comes before and its last character, `cur` the segment so
far. -/
def segsFrom (f : Flags) (p : CharProps) (cur : List Char) : List Char → List (List Char)
  | [] => [cur]
  | c :: cs =>
    if breakB f p (pr c) then cur :: segsFrom (f.next (pr c)) (pr c) [c] cs
    else segsFrom (f.next (pr c)) (pr c) (cur ++ [c]) cs

theorem rctx_snoc' (pre : List Char) (a : Char) : rctx (pre ++ [a]) = pr a :: rctx pre := by
  simp only [rctx, List.map_append, List.reverse_append]
  rfl

theorem segsFrom_segmentation (cs : List Char) : ∀ (pre cur' : List Char) (a : Char),
    (∀ c1 x c2, cur' ++ [a] = c1 ++ x :: c2 → c1 ≠ [] → ∀ post, ¬ CharBoundary (pre ++ c1) (x :: post)) →
    IsSegmentation (fun b aft => CharBoundary (pre ++ b) aft) (cur' ++ [a] ++ cs)
      (segsFrom (flags (rctx (pre ++ cur' ++ [a]))) (pr a) (cur' ++ [a]) cs) := by
  induction cs with
  | nil =>
    intro pre cur' a hin
    rw [segsFrom]
    refine isSegmentation_cons (by simp) ?_ (by simp) (isSegmentation_nil _)
    intro c1 c2 he h1 h2
    cases c2 with
    | nil => exact absurd rfl h2
    | cons x c2 => exact hin c1 x c2 he h1 _
  | cons c cs ih =>
    intro pre cur' a hin
    rw [segsFrom]
    have hb := charBoundary_iff (pre ++ cur') a c cs
    by_cases h : breakB (flags (rctx (pre ++ cur' ++ [a]))) (pr a) (pr c) = true
    · rw [if_pos h]
      refine isSegmentation_cons (by simp) ?_ ?_ ?_
      · intro c1 c2 he h1 h2
        cases c2 with
        | nil => exact absurd rfl h2
        | cons x c2 => exact hin c1 x c2 he h1 _
      · intro _
        rw [← List.append_assoc]
        exact hb.mpr h
      · have := ih (pre ++ (cur' ++ [a])) [] c (by
          intro c1 x c2 he h1
          cases c1 with
          | nil => exact absurd rfl h1
          | cons y c1 => simp at he)
        rw [List.nil_append, List.append_nil] at this
        rw [show flags (rctx (pre ++ (cur' ++ [a]) ++ [c])) = (flags (rctx (pre ++ cur' ++ [a]))).next (pr c) by
          rw [rctx_snoc', flags, List.append_assoc pre]] at this
        refine isSegmentation_congr ?_ this
        intro b aft _ _ _
        rw [List.append_assoc pre]
    · rw [if_neg h]
      have := ih pre (cur' ++ [a]) c (by
        intro c1 x c2 he h1 post
        rcases List.eq_nil_or_concat c2 with rfl | ⟨c2', y, rfl⟩
        · obtain ⟨e1, e2⟩ := List.append_inj' he rfl
          cases e2
          rw [← e1, ← List.append_assoc, charBoundary_iff (pre ++ cur') a c post]
          exact h
        · rw [List.concat_eq_append, ← List.cons_append, ← List.append_assoc] at he
          obtain ⟨e1, e2⟩ := List.append_inj' he rfl
          exact hin c1 x c2' e1 h1 post)
      rw [show flags (rctx (pre ++ (cur' ++ [a]) ++ [c])) = (flags (rctx (pre ++ cur' ++ [a]))).next (pr c) by
          rw [rctx_snoc', flags, List.append_assoc pre]] at this
      rw [List.append_assoc (cur' ++ [a]) [c] cs] at this
      exact this

/-- The segments of a text. -/
def segsOf : List Char → List (List Char)
  | [] => []
  | c :: cs => segsFrom (Flags.init.next (pr c)) (pr c) [c] cs

theorem segsOf_segmentation (cs : List Char) : IsSegmentation CharBoundary cs (segsOf cs) := by
  cases cs with
  | nil => exact isSegmentation_nil _
  | cons c cs =>
    have := segsFrom_segmentation cs [] [] c (by
      intro c1 x c2 he h1
      cases c1 with
      | nil => exact absurd rfl h1
      | cons y c1 => simp at he)
    exact this

theorem tokens_segsOf (cs : List Char) : tokens (utf8 cs) = .ok ((segsOf cs).map utf8) := by
  obtain ⟨segs, h1, h2⟩ := tokens_text cs
  rw [h2, isSegmentation_unique h1 (segsOf_segmentation cs)]

/-! ## Blocks -/

/-- What matters about the last character before a position. -/
def lclass : GCB → GCB
  | .LV => .V
  | .LVT => .T
  | .Extend => .Other
  | .ZWJ => .Other
  | .RegionalIndicator => .Other
  | .SpacingMark => .Other
  | g => g

theorem breakB_lclass (f : Flags) {p p' : CharProps} (h : lclass p.gcb = lclass p'.gcb) (n : CharProps) :
    breakB f p n = breakB f p' n := by
  unfold breakB isCtl
  generalize n.gcb = g, p.gcb = a, p'.gcb = b at *
  cases a <;> cases b <;> first | exact absurd h (by decide) | rfl | (simp)

/-- The facts after a list of characters. -/
def run (f : Flags) (xs : List Char) : Flags := xs.foldl (fun f c => f.next (pr c)) f

/-- No boundary between neighbours, whatever comes before. -/
def Smooth : List Char → Prop
  | a :: b :: xs => (∀ f, breakB f (pr a) (pr b) = false) ∧ Smooth (b :: xs)
  | _ => True

/-- Two blocks that can be exchanged. -/
structure Block (x : Char) (xs : List Char) (y : Char) (ys : List Char) : Prop where
  head : ∀ f p, breakB f p (pr x) = breakB f p (pr y)
  left : Smooth (x :: xs)
  right : Smooth (y :: ys)
  run : ∀ f, run f (x :: xs) = run f (y :: ys)
  last : lclass (pr ((x :: xs).getLast (by simp))).gcb = lclass (pr ((y :: ys).getLast (by simp))).gcb

theorem segsFrom_smooth (xs post : List Char) : ∀ (f : Flags) (a : Char) (cur : List Char), Smooth (a :: xs) →
    segsFrom f (pr a) cur (xs ++ post) = segsFrom (run f xs) (pr ((a :: xs).getLast (by simp))) (cur ++ xs) post := by
  induction xs with
  | nil => intro f a cur _; simp [run]
  | cons b xs ih =>
    intro f a cur h
    rw [Smooth] at h
    rw [List.cons_append, segsFrom, if_neg (by rw [h.1 f]; decide), ih _ b _ h.2, List.getLast_cons (by simp : b :: xs ≠ []),
      List.append_assoc]
    rfl

theorem forallTwo_refl {α : Type} {R : α → α → Prop} (h : ∀ a, R a a) : ∀ l : List α, ForallTwo R l l
  | [] => .nil
  | a :: l => .cons _ _ _ _ (h a) (forallTwo_refl h l)

theorem forallTwo_symm {α : Type} {R : α → α → Prop} (h : ∀ a b, R a b → R b a) {l m : List α} (hl : ForallTwo R l m) :
    ForallTwo R m l := by
  induction hl with
  | nil => exact .nil
  | cons a b as bs h1 _ ih => exact .cons _ _ _ _ (h _ _ h1) ih

theorem forallTwo_trans {α : Type} {R : α → α → Prop} (h : ∀ a b c, R a b → R b c → R a c) {l m : List α}
    (h1 : ForallTwo R l m) : ∀ {n : List α}, ForallTwo R m n → ForallTwo R l n := by
  induction h1 with
  | nil => intro n h2; exact h2
  | cons a b as bs h1 _ ih =>
    intro n h2
    cases h2 with
    | cons _ c _ cs h3 h4 => exact .cons _ _ _ _ (h _ _ _ h1 h3) (ih h4)

theorem sameText_context {a b : List Char} (h : SameText a b) (pre post : List Char) :
    SameText (pre ++ a ++ post) (pre ++ b ++ post) := by
  induction h with
  | step p a b q h =>
    have := SameText.step (pre ++ p) a b (q ++ post) h
    simpa [List.append_assoc] using this
  | refl a => exact .refl _
  | symm a b _ ih => exact .symm _ _ ih
  | trans a b c _ _ ih1 ih2 => exact .trans _ _ _ ih1 ih2

theorem sameText_right {a b : List Char} (h : SameText a b) (post : List Char) : SameText (a ++ post) (b ++ post) := by
  have := sameText_context h [] post
  simpa using this

/-- After the block. -/
theorem segs_after (post : List Char) : ∀ (f : Flags) (p p' : CharProps) (cur cur' : List Char), lclass p.gcb = lclass p'.gcb →
    SameText cur cur' → ForallTwo SameText (segsFrom f p cur post) (segsFrom f p' cur' post) := by
  induction post with
  | nil => intro f p p' cur cur' _ h; exact .cons _ _ _ _ h .nil
  | cons c post ih =>
    intro f p p' cur cur' hp h
    rw [segsFrom, segsFrom, breakB_lclass f hp]
    split
    · exact .cons _ _ _ _ h (forallTwo_refl .refl _)
    · exact ih _ _ _ _ _ rfl (sameText_right h [c])

/-- Before the block. -/
theorem segs_before {x y : Char} {xs ys : List Char} (hb : Block x xs y ys)
    (hs : SameText (x :: xs) (y :: ys)) (post pre : List Char) : ∀ (f : Flags) (p : CharProps) (cur : List Char),
    ForallTwo SameText (segsFrom f p cur (pre ++ x :: (xs ++ post))) (segsFrom f p cur (pre ++ y :: (ys ++ post))) := by
  induction pre with
  | nil =>
    intro f p cur
    rw [List.nil_append, List.nil_append, segsFrom, segsFrom, hb.head]
    have hr := hb.run f
    simp only [run, List.foldl_cons] at hr
    split
    · refine .cons _ _ _ _ (.refl _) ?_
      rw [segsFrom_smooth xs post _ x _ hb.left, segsFrom_smooth ys post _ y _ hb.right]
      simp only [run]
      rw [hr]
      exact segs_after post _ _ _ _ _ hb.last hs
    · rw [segsFrom_smooth xs post _ x _ hb.left, segsFrom_smooth ys post _ y _ hb.right]
      simp only [run]
      rw [hr]
      refine segs_after post _ _ _ _ _ hb.last ?_
      have := sameText_context hs cur []
      simpa using this
  | cons c pre ih =>
    intro f p cur
    rw [List.cons_append, List.cons_append, segsFrom, segsFrom]
    split
    · exact .cons _ _ _ _ (.refl _) (ih _ _ _)
    · exact ih _ _ _

theorem segs_block {x y : Char} {xs ys : List Char} (hb : Block x xs y ys)
    (hs : SameText (x :: xs) (y :: ys)) (pre post : List Char) :
    ForallTwo SameText (segsOf (pre ++ x :: xs ++ post)) (segsOf (pre ++ y :: ys ++ post)) := by
  cases pre with
  | nil =>
    rw [List.nil_append, List.nil_append, List.cons_append, List.cons_append, segsOf, segsOf,
      segsFrom_smooth xs post _ x _ hb.left, segsFrom_smooth ys post _ y _ hb.right]
    have hr := hb.run Flags.init
    simp only [run, List.foldl_cons] at hr
    simp only [run]
    rw [hr]
    exact segs_after post _ _ _ _ _ hb.last hs
  | cons c pre =>
    rw [List.cons_append, List.cons_append, List.cons_append, List.cons_append, segsOf, segsOf, List.append_assoc, List.append_assoc,
      List.cons_append, List.cons_append]
    exact segs_before hb hs post pre _ _ _

/-! ## The properties of Hangul syllables -/

def lvStarts : List (Nat × Nat × GCB) := graphemeBreakProperty.filter fun r => r.2.2 == .LV
def lvtStarts : List (Nat × Nat × GCB) := graphemeBreakProperty.filter fun r => r.2.2 == .LVT

set_option maxRecDepth 100000 in
theorem lv_data : lvStarts = (List.range 399).map fun k => (0xAC00 + 28 * k, 0xAC00 + 28 * k, GCB.LV) := by decide +kernel
set_option maxRecDepth 100000 in
theorem lvt_data : lvtStarts = (List.range 399).map fun k => (0xAC00 + 28 * k + 1, 0xAC00 + 28 * k + 27, GCB.LVT) := by decide +kernel
set_option maxRecDepth 100000 in
theorem jamo_data : graphemeBreakProperty.filter (fun r => r.2.2 == .L || r.2.2 == .V || r.2.2 == .T) =
    [(0x1100, 0x115F, .L), (0xA960, 0xA97C, .L), (0x1160, 0x11A7, .V), (0xD7B0, 0xD7C6, .V), (0x16D63, 0x16D63, .V),
     (0x16D67, 0x16D6A, .V), (0x11A8, 0x11FF, .T), (0xD7CB, 0xD7FB, .T)] := by decide +kernel

theorem ucd_of_mem {c lo hi : Nat} {g : GCB} (h : (lo, hi, g) ∈ graphemeBreakProperty) (h1 : lo ≤ c) (h2 : c ≤ hi)
    (hg : g = .L ∨ g = .V ∨ g = .T ∨ g = .LV ∨ g = .LVT) : ucd c = ⟨g, false, .None⟩ := by
  have e : (ucd c).gcb = g := by
    unfold ucd
    simp only
    rw [lookupRange_of_mem gcb_disjoint h h1 h2]
    rfl
  have hc := ucd_consistent c
  generalize ucd c = p at *
  obtain ⟨g', e', i⟩ := p
  simp only at e
  subst e
  have h1 : e' = false := by
    cases e' with
    | false => rfl
    | true =>
      have := (hc.pict rfl).1
      simp only at this
      subst this
      simp at hg
  have h2 : i = .None := by
    cases i with
    | None => rfl
    | Consonant =>
      have := hc.consonant rfl
      simp only at this
      subst this
      simp at hg
    | Extend =>
      have := hc.joiner (.inl rfl)
      simp only at this
      rcases this with h | h <;> subst h <;> simp at hg
    | Linker =>
      have := hc.joiner (.inr rfl)
      simp only at this
      rcases this with h | h <;> subst h <;> simp at hg
  rw [h1, h2]

theorem char_val {n : Nat} (h : n.isValidChar) : (Char.ofNat n).val.toNat = n := by
  unfold Char.ofNat
  rw [dif_pos h]
  rfl

theorem pr_hangul {l v t : Nat} (hl : l < 19) (hv : v < 21) (ht : t < 28) :
    pr (hangulSyllable l v t) = ⟨if t = 0 then .LV else .LVT, false, .None⟩ := by
  have hk : l * 21 + v < 399 := by omega
  unfold hangulSyllable pr
  rw [char_val (by unfold Nat.isValidChar; omega)]
  have hk' := List.mem_range.mpr hk
  by_cases h0 : t = 0
  · subst h0
    have hm : (0xAC00 + 28 * (l * 21 + v), 0xAC00 + 28 * (l * 21 + v), GCB.LV) ∈ lvStarts := by
      rw [lv_data]; exact List.mem_map.mpr ⟨_, hk', rfl⟩
    exact ucd_of_mem (List.mem_filter.mp hm).1 (by omega) (by omega) (by simp)
  · rw [if_neg h0]
    have hm : (0xAC00 + 28 * (l * 21 + v) + 1, 0xAC00 + 28 * (l * 21 + v) + 27, GCB.LVT) ∈ lvtStarts := by
      rw [lvt_data]; exact List.mem_map.mpr ⟨_, hk', rfl⟩
    exact ucd_of_mem (List.mem_filter.mp hm).1 (by omega) (by omega) (by simp)

theorem jamo_mem {lo hi : Nat} {g : GCB} (h : (lo, hi, g) ∈ ([(0x1100, 0x115F, .L), (0xA960, 0xA97C, .L), (0x1160, 0x11A7, .V),
    (0xD7B0, 0xD7C6, .V), (0x16D63, 0x16D63, .V), (0x16D67, 0x16D6A, .V), (0x11A8, 0x11FF, .T), (0xD7CB, 0xD7FB, .T)] : List (Nat × Nat × GCB))) :
    (lo, hi, g) ∈ graphemeBreakProperty := by
  rw [← jamo_data] at h
  exact (List.mem_filter.mp h).1

theorem pr_jamoL {l : Nat} (hl : l < 19) : pr (jamoL l) = ⟨.L, false, .None⟩ := by
  unfold jamoL pr
  rw [char_val (by unfold Nat.isValidChar; omega)]
  exact ucd_of_mem (jamo_mem (lo := 0x1100) (hi := 0x115F) (by simp)) (by omega) (by omega) (by simp)

theorem pr_jamoV {v : Nat} (hv : v < 21) : pr (jamoV v) = ⟨.V, false, .None⟩ := by
  unfold jamoV pr
  rw [char_val (by unfold Nat.isValidChar; omega)]
  exact ucd_of_mem (jamo_mem (lo := 0x1160) (hi := 0x11A7) (by simp)) (by omega) (by omega) (by simp)

theorem pr_jamoT {t : Nat} (h0 : 0 < t) (ht : t < 28) : pr (jamoT t) = ⟨.T, false, .None⟩ := by
  unfold jamoT pr
  rw [char_val (by unfold Nat.isValidChar; omega)]
  exact ucd_of_mem (jamo_mem (lo := 0x11A8) (hi := 0x11FF) (by simp)) (by omega) (by omega) (by simp)

/-! ## The steps -/

theorem mark_pr {m : Char} (h : gcbOf m = .Extend) : (pr m).extPict = false ∧ (pr m).incb ≠ .Consonant := by
  have hc := ucd_consistent m.val.toNat
  constructor
  · cases e : (pr m).extPict with
    | false => rfl
    | true => exact absurd ((hc.pict e).1.symm.trans h) (by decide)
  · intro e
    exact absurd ((hc.consonant e).symm.trans h) (by decide)

theorem spacing_pr {m : Char} (h : gcbOf m = .SpacingMark) : pr m = ⟨.SpacingMark, false, .None⟩ := by
  have hc := ucd_consistent m.val.toNat
  have h : (pr m).gcb = .SpacingMark := h
  change (pr m).Consistent at hc
  generalize pr m = p at *
  obtain ⟨g, e, i⟩ := p
  simp only at h
  subst h
  have h1 : e = false := by
    cases e with
    | false => rfl
    | true => exact absurd (hc.pict rfl).1 (by simp)
  have h2 : i = .None := by
    cases i with
    | None => rfl
    | Consonant => exact absurd (hc.consonant rfl) (by simp)
    | Extend => exact absurd (hc.joiner (.inl rfl)) (by simp)
    | Linker => exact absurd (hc.joiner (.inr rfl)) (by simp)
  rw [h1, h2]

theorem isMark_pr {m : Char} (h : IsMark m) : pr m = ⟨.Extend, false, .Extend⟩ := by
  obtain ⟨h1, h2⟩ := h
  have h3 := (mark_pr h1).1
  have h1 : (pr m).gcb = .Extend := h1
  have h2 : (pr m).incb = .Extend := h2
  generalize pr m = p at *
  obtain ⟨g, e, i⟩ := p
  simp only at h1 h2 h3
  rw [h1, h2, h3]

theorem letter_pr {c : Char} (h1 : gcbOf c = .Other) (h2 : ¬ isPict c) :
    pr c = ⟨.Other, false, .None⟩ ∨ pr c = ⟨.Other, false, .Consonant⟩ := by
  have hc := ucd_consistent c.val.toNat
  have h1 : (pr c).gcb = .Other := h1
  have h2 : ¬ (pr c).extPict = true := h2
  change (pr c).Consistent at hc
  generalize pr c = p at *
  obtain ⟨g, e, i⟩ := p
  simp only [Bool.not_eq_true] at h1 h2
  subst h1 h2
  cases i with
  | None => exact .inl rfl
  | Consonant => exact .inr rfl
  | Extend => exact absurd (hc.joiner (.inl rfl)) (by simp)
  | Linker => exact absurd (hc.joiner (.inr rfl)) (by simp)

theorem head_decide {x y : CharProps} (h : (allBool fun a => allBool fun b => allBool fun c => [GCB.Other, .CR, .LF, .Control, .Extend, .ZWJ, .RegionalIndicator, .Prepend, .SpacingMark, .L, .V, .T, .LV, .LVT].all fun g =>
    breakB ⟨false, a, false, b, c⟩ ⟨g, false, .None⟩ x == breakB ⟨false, a, false, b, c⟩ ⟨g, false, .None⟩ y) = true) (f : Flags) (p : CharProps) :
    breakB f p x = breakB f p y := by
  have e : ∀ n, breakB f p n = breakB ⟨false, f.emoZ, false, f.lnk, f.ri⟩ ⟨p.gcb, false, .None⟩ n := fun n => rfl
  rw [e, e]
  simp only [allBool, Bool.and_eq_true, List.all_eq_true, beq_iff_eq] at h
  have hm : p.gcb ∈ [GCB.Other, .CR, .LF, .Control, .Extend, .ZWJ, .RegionalIndicator, .Prepend, .SpacingMark, .L, .V, .T, .LV, .LVT] := by
    cases p.gcb <;> simp
  cases f.emoZ <;> cases f.lnk <;> cases f.ri
  · exact h.1.1.1 _ hm
  · exact h.1.1.2 _ hm
  · exact h.1.2.1 _ hm
  · exact h.1.2.2 _ hm
  · exact h.2.1.1 _ hm
  · exact h.2.1.2 _ hm
  · exact h.2.2.1 _ hm
  · exact h.2.2.2 _ hm

theorem run_decide {u v : Flags → Flags} (h : allFlags (fun f => decide (u f = v f)) = true) (f : Flags) : u f = v f :=
  of_decide_eq_true (allFlags_sound h f)

theorem block_one_two {x y z : Char} (px py pz : CharProps) (ex : pr x = px) (ey : pr y = py) (ez : pr z = pz)
    (hh : ∀ f p, breakB f p px = breakB f p py) (hs : ∀ f, breakB f py pz = false)
    (hr : allFlags (fun f => decide (f.next px = (f.next py).next pz)) = true) (hl : lclass px.gcb = lclass pz.gcb) :
    ∃ x' xs y' ys, [x] = x' :: xs ∧ [y, z] = y' :: ys ∧ Block x' xs y' ys := by
  refine ⟨_, _, _, _, rfl, rfl, ?_, trivial, ⟨?_, trivial⟩, ?_, ?_⟩
  · rw [ex, ey]; exact hh
  · rw [ey, ez]; exact hs
  · intro f
    simp only [run, List.foldl_cons, List.foldl_nil, ex, ey, ez]
    exact run_decide (u := fun f => f.next px) (v := fun f => (f.next py).next pz) hr f
  · simp only [List.getLast_cons_cons, List.getLast_singleton, ex, ez]
    exact hl

theorem swap_run (m n : CharProps) (hm : m.gcb = .Extend) (hn : n.gcb = .Extend) (em : m.extPict = false) (en : n.extPict = false)
    (im : m.incb ≠ .Consonant) (im' : n.incb ≠ .Consonant) (f : Flags) : (f.next m).next n = (f.next n).next m := by
  obtain ⟨g, e, i⟩ := m
  obtain ⟨g', e', i'⟩ := n
  simp only at hm hn em en im im'
  subst hm hn em en
  cases i <;> first | exact absurd rfl im | (cases i' <;> first | exact absurd rfl im' |
    exact run_decide (u := fun f => (f.next _).next _) (v := fun f => (f.next _).next _) (by decide) f)

theorem respelled_block {a b : List Char} (h : Respelled a b) :
    ∃ x xs y ys, a = x :: xs ∧ b = y :: ys ∧ Block x xs y ys := by
  cases h with
  | lv l v hl hv =>
    have e1 := pr_hangul (t := 0) hl hv (by omega)
    rw [if_pos rfl] at e1
    exact block_one_two _ _ _ e1 (pr_jamoL hl) (pr_jamoV hv) (head_decide (by decide)) (fun f => breakB_hangul f (by simp))
      (by decide) rfl
  | lvt l v t hl hv h0 ht =>
    have e1 := pr_hangul (t := 0) hl hv (by omega)
    have e2 := pr_hangul hl hv ht
    rw [if_pos rfl] at e1
    rw [if_neg (by omega)] at e2
    exact block_one_two _ _ _ e2 e1 (pr_jamoT h0 ht) (head_decide (by decide)) (fun f => breakB_hangul f (by simp))
      (by decide) rfl
  | letter c b m h1 h2 h3 h4 h5 h6 =>
    have em := isMark_pr h6
    have h5 : (pr b).incb = (pr c).incb := h5
    rcases letter_pr h1 h2 with ec | ec <;> rcases letter_pr h3 h4 with eb | eb
    · exact block_one_two _ _ _ ec eb em (fun _ _ => rfl) (fun f => breakB_mark f (by simp [CharProps.isControl]) (by simp))
        (by decide) rfl
    · rw [ec, eb] at h5; cases h5
    · rw [ec, eb] at h5; cases h5
    · exact block_one_two _ _ _ ec eb em (fun _ _ => rfl) (fun f => breakB_mark f (by simp [CharProps.isControl]) (by simp))
        (by decide) rfl
  | spacing c b m h1 h2 h3 =>
    exact block_one_two _ _ _ (spacing_pr h1) (spacing_pr h2) (isMark_pr h3) (fun _ _ => rfl)
      (fun f => breakB_mark f (by simp [CharProps.isControl]) (by simp)) (by decide) rfl
  | mark c b m h1 h2 h3 =>
    exact block_one_two _ _ _ (isMark_pr h1) (isMark_pr h2) (isMark_pr h3) (fun _ _ => rfl)
      (fun f => breakB_mark f (by simp [CharProps.isControl]) (by simp)) (by decide) rfl
  | same c b h =>
    have h : pr c = pr b := h
    refine ⟨_, _, _, _, rfl, rfl, ?_, trivial, trivial, ?_, ?_⟩
    · intro f p; rw [h]
    · intro f
      simp only [run, List.foldl_cons, List.foldl_nil]
      rw [h]
    · simp only [List.getLast_singleton]
      rw [h]
  | swap m n h1 h2 =>
    obtain ⟨m1, m2⟩ := mark_pr h1
    obtain ⟨n1, n2⟩ := mark_pr h2
    have h1 : (pr m).gcb = .Extend := h1
    have h2 : (pr n).gcb = .Extend := h2
    refine ⟨_, _, _, _, rfl, rfl, ?_, ⟨?_, trivial⟩, ⟨?_, trivial⟩, ?_, ?_⟩
    · intro f p
      by_cases hp : p.isControl
      · rw [breakB_ctl f (by rw [h1]; simp) (.inl hp), breakB_ctl f (by rw [h2]; simp) (.inl hp)]
      · rw [breakB_mark f hp (.inl h1), breakB_mark f hp (.inl h2)]
    · intro f
      exact breakB_mark f (by simp [CharProps.isControl, h1]) (.inl h2)
    · intro f
      exact breakB_mark f (by simp [CharProps.isControl, h2]) (.inl h1)
    · intro f
      simp only [run, List.foldl_cons, List.foldl_nil]
      exact swap_run _ _ h1 h2 m1 n1 m2 n2 f
    · simp only [List.getLast_cons_cons, List.getLast_singleton]
      rw [h1, h2]

theorem segs_sameText {a b : List Char} (h : SameText a b) : ForallTwo SameText (segsOf a) (segsOf b) := by
  induction h with
  | step pre a b post h =>
    obtain ⟨x, xs, y, ys, rfl, rfl, hb⟩ := respelled_block h
    refine segs_block hb ?_ pre post
    have := SameText.step [] _ _ [] h
    simpa using this
  | refl a => exact forallTwo_refl .refl _
  | symm a b _ ih => exact forallTwo_symm .symm ih
  | trans a b c _ _ ih1 ih2 => exact forallTwo_trans .trans ih1 ih2

/-! ## Respelling every character -/

theorem segsFrom_flatMap {D : Char → List Char} (hD : ∀ c, ∃ y ys, D c = y :: ys ∧ Block c [] y ys) (cs : List Char) :
    ∀ (f : Flags) (p p' : CharProps) (cur : List Char), lclass p.gcb = lclass p'.gcb →
      segsFrom f p' (cur.flatMap D) (cs.flatMap D) = (segsFrom f p cur cs).map (·.flatMap D) := by
  induction cs with
  | nil => intro f p p' cur _; rfl
  | cons c cs ih =>
    intro f p p' cur hp
    obtain ⟨y, ys, e, hb⟩ := hD c
    rw [List.flatMap_cons, e, List.cons_append, segsFrom, segsFrom, ← hb.head, breakB_lclass f hp]
    have hr := hb.run f
    simp only [run, List.foldl_cons, List.foldl_nil] at hr
    have hl := hb.last
    rw [List.getLast_singleton] at hl
    split
    · rw [segsFrom_smooth ys _ _ y _ hb.right, List.map_cons]
      congr 1
      simp only [run]
      rw [← hr]
      have := ih (f.next (pr c)) (pr c) _ [c] hl
      rw [← this, List.flatMap_singleton, e]
      rfl
    · rw [segsFrom_smooth ys _ _ y _ hb.right]
      simp only [run]
      rw [← hr]
      have := ih (f.next (pr c)) (pr c) _ (cur ++ [c]) hl
      rw [← this, List.flatMap_append, List.flatMap_singleton, e, List.append_assoc]
      rfl

theorem segsOf_flatMap {D : Char → List Char} (hD : ∀ c, ∃ y ys, D c = y :: ys ∧ Block c [] y ys) (cs : List Char) :
    segsOf (cs.flatMap D) = (segsOf cs).map (·.flatMap D) := by
  cases cs with
  | nil => rfl
  | cons c cs =>
    obtain ⟨y, ys, e, hb⟩ := hD c
    have hr := hb.run Flags.init
    simp only [run, List.foldl_cons, List.foldl_nil] at hr
    have hl := hb.last
    rw [List.getLast_singleton] at hl
    rw [List.flatMap_cons, e, List.cons_append, segsOf, segsOf, segsFrom_smooth ys _ _ y _ hb.right]
    simp only [run]
    rw [← hr]
    have := segsFrom_flatMap hD cs (Flags.init.next (pr c)) (pr c) _ [c] hl
    rw [← this, List.flatMap_singleton, e]
    rfl

theorem block_refl (c : Char) : Block c [] c [] :=
  ⟨fun _ _ => rfl, trivial, trivial, fun _ => rfl, rfl⟩

theorem respelled_one {c : Char} {l : List Char} (h : Respelled [c] l) : ∃ y ys, l = y :: ys ∧ Block c [] y ys := by
  obtain ⟨x, xs, y, ys, h1, h2, hb⟩ := respelled_block h
  cases h1
  exact ⟨y, ys, h2, hb⟩

theorem char_hangul {c : Char} (h1 : 0xAC00 ≤ c.val.toNat) (h2 : c.val.toNat < 0xAC00 + 11172) :
    c = hangulSyllable ((c.val.toNat - 0xAC00) / 588) ((c.val.toNat - 0xAC00) % 588 / 28) ((c.val.toNat - 0xAC00) % 28) := by
  unfold hangulSyllable
  have : 0xAC00 + ((c.val.toNat - 0xAC00) / 588 * 21 + (c.val.toNat - 0xAC00) % 588 / 28) * 28 + (c.val.toNat - 0xAC00) % 28 =
    c.val.toNat := by omega
  rw [this]
  exact (Char.ofNat_toNat c).symm

theorem block_lvt {l v t : Nat} (hl : l < 19) (hv : v < 21) (h0 : t ≠ 0) (ht : t < 28) :
    Block (hangulSyllable l v t) [] (jamoL l) [jamoV v, jamoT t] := by
  have e1 := pr_hangul hl hv ht
  rw [if_neg h0] at e1
  have e2 := pr_jamoL hl
  have e3 := pr_jamoV hv
  have e4 := pr_jamoT (by omega) ht
  refine ⟨?_, trivial, ⟨?_, ?_, trivial⟩, ?_, ?_⟩
  · rw [e1, e2]; exact head_decide (by decide)
  · rw [e2, e3]; exact fun f => breakB_hangul f (by simp)
  · rw [e3, e4]; exact fun f => breakB_hangul f (by simp)
  · intro f
    simp only [run, List.foldl_cons, List.foldl_nil, e1, e2, e3, e4]
    exact run_decide (u := fun f => f.next _) (v := fun f => ((f.next _).next _).next _) (by decide) f
  · simp only [List.getLast_cons_cons, List.getLast_singleton, e1, e4]
    rfl

theorem block_hangul (c : Char) : ∃ y ys, decomposeHangul c = y :: ys ∧ Block c [] y ys := by
  by_cases h : 0xAC00 ≤ c.val.toNat ∧ c.val.toNat < 0xAC00 + 11172
  · have hc := char_hangul h.1 h.2
    obtain ⟨s, hs⟩ : ∃ s, s = c.val.toNat - 0xAC00 := ⟨_, rfl⟩
    rw [← hs] at hc
    have hs' : s < 11172 := by omega
    have hl : s / 588 < 19 := by omega
    have hv : s % 588 / 28 < 21 := by omega
    have ht : s % 28 < 28 := by omega
    by_cases h0 : s % 28 = 0
    · have e : decomposeHangul c = [jamoL (s / 588), jamoV (s % 588 / 28)] := by
        rw [decomposeHangul, if_pos h, ← hs]
        exact if_pos h0
      rw [h0] at hc
      rw [e, hc]
      exact respelled_one (.lv _ _ hl hv)
    · have e : decomposeHangul c = [jamoL (s / 588), jamoV (s % 588 / 28), jamoT (s % 28)] := by
        rw [decomposeHangul, if_pos h, ← hs]
        exact if_neg h0
      rw [e, hc]
      exact ⟨_, _, rfl, block_lvt hl hv h0 ht⟩
  · exact ⟨c, [], if_neg h, block_refl c⟩

theorem segsOf_flatten (cs : List Char) : (segsOf cs).flatten = cs := (segsOf_segmentation cs).1

theorem segsFrom_congr {a b : List Char} (h : ForallTwo (fun x y => ucd x.val.toNat = ucd y.val.toNat) a b) :
    ∀ (f : Flags) (p : CharProps) (cur cur' : List Char), cur.length = cur'.length →
      (segsFrom f p cur a).map List.length = (segsFrom f p cur' b).map List.length := by
  induction h with
  | nil => intro f p cur cur' hl; simp [segsFrom, hl]
  | cons x y a b hxy _ ih =>
    intro f p cur cur' hl
    have e : pr x = pr y := hxy
    rw [segsFrom, segsFrom, e]
    split
    · rw [List.map_cons, List.map_cons, hl, ih _ _ [x] [y] rfl]
    · exact ih _ _ _ _ (by simp [hl])

theorem segsOf_congr {a b : List Char} (h : ForallTwo (fun x y => ucd x.val.toNat = ucd y.val.toNat) a b) :
    (segsOf a).map List.length = (segsOf b).map List.length := by
  cases h with
  | nil => rfl
  | cons x y a b hxy h =>
    have e : pr x = pr y := hxy
    rw [segsOf, segsOf, e]
    exact segsFrom_congr h _ _ [x] [y] rfl

end Textseg
