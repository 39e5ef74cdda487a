import Verif.Proofs.GenFiles
/-!
# What the entries of data files make the generator record
-/

namespace Textseg.Gen
open Textseg Spec Scanner

theorem codePoint_ofNat {n : Nat} (h : n.isValidChar) : codePoint (Int32.ofNat n) = n := by
  have hn : n < 2 ^ 31 := by
    unfold Nat.isValidChar at h
    omega
  unfold codePoint
  rw [ofNat_toInt hn]
  rw [if_pos ⟨by omega, by simpa using h⟩]
  omega

/-- `c` is meant only by itself among the numbers of the entry. -/
def Exact (c : Nat) (x : FileEntry) : Prop := ∀ n, x.1 ≤ n → n ≤ x.2.1 → (codePoint (Int32.ofNat n) = c ↔ n = c)

theorem exact_of_scalar (c : Nat) {x : FileEntry} (h : ∀ n, x.1 ≤ n → n ≤ x.2.1 → n.isValidChar) : Exact c x := by
  intro n h1 h2
  rw [codePoint_ofNat (h n h1 h2)]

theorem exact_of_ne {c : Nat} (hv : c.isValidChar) (hc : c ≠ 0xFFFD) {x : FileEntry} (hx : SmallEntry x) : Exact c x := by
  intro n h1 h2
  by_cases h : n.isValidChar
  · rw [codePoint_ofNat h]
  · have hn : n < 2 ^ 31 := by have := hx.2; omega
    have : codePoint (Int32.ofNat n) = 0xFFFD := by
      unfold codePoint
      rw [ofNat_toInt hn, if_neg (by rintro ⟨_, h'⟩; exact h (by simpa using h'))]
    rw [this]
    constructor
    · intro e; exact absurd e.symm hc
    · intro e; subst e; exact absurd hv h

theorem filter_range (lo c m : Nat) : (List.range m).filter (fun i => lo + i == c) = if lo ≤ c ∧ c < lo + m then [c - lo] else [] := by
  induction m with
  | zero => rw [if_neg (by omega)]; rfl
  | succ m ih =>
    rw [List.range_succ, List.filter_append, ih]
    by_cases h : lo + m = c
    · rw [if_neg (by omega), if_pos (by omega)]
      simp [h]
      omega
    · have : (List.filter (fun i => lo + i == c) [m]) = [] := by simp [h]
      rw [this, List.append_nil]
      by_cases h2 : lo ≤ c ∧ c < lo + m
      · rw [if_pos h2, if_pos (by omega)]
      · rw [if_neg h2, if_neg (by omega)]

theorem filter_forEach {op : Rune → TableOp} (hop : ∀ r, (op r).rune = r) {c : Nat} {x : FileEntry} (hx : Exact c x) :
    (forEach op x).filter (fun o => codePoint o.rune == c) = if x.covers c then [op (Int32.ofNat c)] else [] := by
  unfold forEach FileEntry.covers
  rw [List.filter_map]
  have : (List.range (x.2.1 + 1 - x.1)).filter ((fun o : TableOp => codePoint o.rune == c) ∘ fun i => op (Int32.ofNat (x.1 + i))) =
      (List.range (x.2.1 + 1 - x.1)).filter (fun i => x.1 + i == c) := by
    apply List.filter_congr
    intro i hi
    have hi := List.mem_range.mp hi
    simp only [Function.comp_apply, hop]
    have := hx (x.1 + i) (by omega) (by omega)
    by_cases h : x.1 + i = c
    · rw [beq_iff_eq.mpr h, beq_iff_eq.mpr (this.mpr h)]
    · have h' : ¬ codePoint (Int32.ofNat (x.1 + i)) = c := fun e => h (this.mp e)
      rw [beq_eq_false_iff_ne.mpr h, beq_eq_false_iff_ne.mpr h']
  rw [this, filter_range]
  by_cases h : x.1 ≤ c ∧ c ≤ x.2.1
  · rw [if_pos (by omega)]
    simp only [h, decide_true, Bool.and_self, if_true, List.map_cons, List.map_nil]
    rw [show x.1 + (c - x.1) = c by omega]
  · rw [if_neg (by omega)]
    have : (decide (x.1 ≤ c) && decide (c ≤ x.2.1)) = false := by
      rw [Bool.eq_false_iff]
      intro e
      simp at e
      exact h e
    rw [this]
    rfl

theorem fold_gcb (code : List UInt8 → UInt8) (c : Nat) : ∀ (es : List FileEntry) (b : UInt8), (∀ x ∈ es, Exact c x) → (∀ x ∈ es, x.2.2 ≠ []) →
    (((es.flatMap (gcbOps code)).filter fun o => codePoint o.rune == c).foldl TableOp.effect b) =
      ((gcbListed es c).map code).getD b := by
  intro es
  induction es with
  | nil => intro b _ _; rfl
  | cons x es ih =>
    intro b hx hn
    have hx0 := hx x List.mem_cons_self
    have hn0 := hn x List.mem_cons_self
    rw [List.flatMap_cons, List.filter_append, List.foldl_append,
      ih _ (fun y hy => hx y (List.mem_cons_of_mem _ hy)) (fun y hy => hn y (List.mem_cons_of_mem _ hy))]
    obtain ⟨name, rest, hl⟩ := List.exists_cons_of_ne_nil hn0
    have e : gcbOps code x = forEach (fun r => .set r (code name)) x := by unfold gcbOps; rw [hl]
    rw [e, filter_forEach (fun _ => rfl) hx0]
    unfold gcbListed
    rw [List.filter_cons]
    cases hc : x.covers c
    · rfl
    · simp only [if_true, List.foldl_cons, List.foldl_nil, TableOp.effect, List.getLast?_cons]
      cases hg : (es.filter fun x => x.covers c).getLast? with
      | none => simp [hl]
      | some y =>
        have hy : y ∈ es := (List.mem_filter.mp (List.mem_of_getLast? hg)).1
        obtain ⟨name', rest', hl'⟩ := List.exists_cons_of_ne_nil (hn y (List.mem_cons_of_mem _ hy))
        simp [hl']

theorem fold_emoji (c : Nat) : ∀ (es : List FileEntry) (b : UInt8), (∀ x ∈ es, Exact c x) →
    (((es.flatMap emojiOps).filter fun o => codePoint o.rune == c).foldl TableOp.effect b) = if pictListed es c then 4 else b := by
  intro es
  induction es with
  | nil => intro b _; rfl
  | cons x es ih =>
    intro b hx
    have hx0 := hx x List.mem_cons_self
    rw [List.flatMap_cons, List.filter_append, List.foldl_append, ih _ (fun y hy => hx y (List.mem_cons_of_mem _ hy))]
    have hp : pictListed (x :: es) c = ((x.covers c && x.2.2.head? == some (ascii "Extended_Pictographic")) || pictListed es c) :=
      List.any_cons
    rw [hp]
    rcases hl : x.2.2 with _ | ⟨name, rest⟩
    · have e : emojiOps x = [] := by unfold emojiOps; rw [hl]
      rw [e, List.head?_nil, show ((none : Option (List UInt8)) == some (ascii "Extended_Pictographic")) = false from rfl,
        Bool.and_false, Bool.false_or]
      rfl
    · by_cases hn : name = ascii "Extended_Pictographic"
      · have e : emojiOps x = forEach (fun r => .set r 4) x := by unfold emojiOps; rw [hl]; simp only [hn, if_true]
        rw [e, filter_forEach (fun _ => rfl) hx0, List.head?_cons, hn, beq_self_eq_true, Bool.and_true]
        cases hc : x.covers c
        · rfl
        · simp [TableOp.effect]
      · have e : emojiOps x = [] := by unfold emojiOps; rw [hl]; simp only [hn, if_false]
        rw [e, List.head?_cons, beq_eq_false_iff_ne.mpr (fun h => hn (Option.some.inj h)), Bool.and_false, Bool.false_or]
        rfl

theorem fold_incb (code : List UInt8 → UInt8) (c : Nat) : ∀ (es : List FileEntry) (b : UInt8), (∀ x ∈ es, Exact c x) →
    (((es.flatMap (incbOps code)).filter fun o => codePoint o.rune == c).foldl TableOp.effect b) =
      ((incbListed es c).map code).foldl (· ||| ·) b := by
  intro es
  induction es with
  | nil => intro b _; rfl
  | cons x es ih =>
    intro b hx
    have hx0 := hx x List.mem_cons_self
    rw [List.flatMap_cons, List.filter_append, List.foldl_append, ih _ (fun y hy => hx y (List.mem_cons_of_mem _ hy))]
    unfold incbListed
    rw [List.filter_cons]
    rcases hl : x.2.2 with _ | ⟨prop, _ | ⟨name, rest⟩⟩
    · have e : incbOps code x = [] := by unfold incbOps; rw [hl]
      rw [e]
      simp
    · have e : incbOps code x = [] := by unfold incbOps; rw [hl]
      rw [e]
      cases hc : (x.covers c && ([prop] : List (List UInt8)).head? == some (ascii "InCB"))
      · rfl
      · simp [hl]
    · by_cases hn : prop = ascii "InCB"
      · have e : incbOps code x = forEach (fun r => .bitwiseOr r (code name)) x := by unfold incbOps; rw [hl]; simp only [hn, if_true]
        rw [e, filter_forEach (fun _ => rfl) hx0]
        cases hc : x.covers c
        · simp
        · simp [hn, TableOp.effect, hl]
      · have e : incbOps code x = [] := by unfold incbOps; rw [hl]; simp only [hn, if_false]
        rw [e]
        simp [hn]

theorem foldl_or (l : List UInt8) (b : UInt8) : l.foldl (· ||| ·) b = b ||| l.foldl (· ||| ·) 0 := by
  induction l generalizing b with
  | nil => simp
  | cons a l ih =>
    rw [List.foldl_cons, List.foldl_cons, ih, ih (0 ||| a), UInt8.or_assoc]
    simp

theorem recorded_files (gcbOf incbOf : List UInt8 → UInt8) {es1 es2 es3 : List FileEntry} {c : Nat} (h1 : ∀ x ∈ es1, Exact c x)
    (h2 : ∀ x ∈ es2, Exact c x) (h3 : ∀ x ∈ es3, Exact c x) (hn : ∀ x ∈ es1, x.2.2 ≠ []) :
    recorded (fileOps gcbOf incbOf es1 es2 es3) c = listedProps gcbOf incbOf es1 es2 es3 c := by
  unfold recorded fileOps listedProps
  rw [List.filter_append, List.filter_append, List.foldl_append, List.foldl_append, fold_gcb _ _ _ _ h1 hn, fold_emoji _ _ _ h2,
    fold_incb _ _ _ _ h3, foldl_or]

theorem fieldsText_ne {s fs} (h : FieldsText s fs) : fs ≠ [] := by cases h <;> simp

theorem linesMean_ne {ls es fe} (h : LinesMean ls es fe) : ∀ x ∈ es, x.2.2 ≠ [] := by
  induction h with
  | done => simp
  | skip _ _ _ _ _ _ ih => exact ih
  | entry l ls es e lo hi fields h _ ih =>
    intro x hx
    rcases List.mem_cons.mp hx with rfl | hx
    · obtain ⟨_, _, _, _, _, _, _, h⟩ := h
      exact fieldsText_ne h
    · exact ih x hx
  | malformed => simp

end Textseg.Gen
