import Verif.Proofs.Local
/-!
# Special cases of the decision
-/

namespace Textseg
open Spec

theorem breakB_crlf (f : Flags) {p n : CharProps} (hp : p.gcb = .CR) (hn : n.gcb = .LF) : breakB f p n = false := by
  simp [breakB, hp, hn]

theorem breakB_ctl (f : Flags) {p n : CharProps} (hn : ¬ (p.gcb = .CR ∧ n.gcb = .LF)) (hc : p.isControl ∨ n.isControl) :
    breakB f p n = true := by
  rw [← isCtl_iff, ← isCtl_iff] at hc
  have h1 : (p.gcb == .CR && n.gcb == .LF) = false := by
    simpa using fun h1 h2 => hn ⟨h1, h2⟩
  unfold breakB
  rw [h1]
  rcases hc with hc | hc <;> simp [hc]

theorem not_crlf {p n : CharProps} (h : ¬ p.isControl ∨ ¬ n.isControl) : (p.gcb == .CR && n.gcb == .LF) = false := by
  rw [Bool.and_eq_false_iff, beq_eq_false_iff_ne, beq_eq_false_iff_ne]
  rcases h with h | h
  · exact Or.inl fun e => h (Or.inr (Or.inl e))
  · exact Or.inr fun e => h (Or.inr (Or.inr e))

theorem ctl_false {p : CharProps} (h : ¬ p.isControl) : isCtl p = false := by
  rw [← isCtl_iff] at h; simpa using h

theorem breakB_mark (f : Flags) {p n : CharProps} (hp : ¬ p.isControl)
    (hn : n.gcb = .Extend ∨ n.gcb = .ZWJ ∨ n.gcb = .SpacingMark) : breakB f p n = false := by
  have hn' : ¬ n.isControl := by rcases hn with h | h | h <;> simp [CharProps.isControl, h]
  unfold breakB
  rw [not_crlf (Or.inl hp), ctl_false hp, ctl_false hn']
  rcases hn with h | h | h <;> simp [h]

theorem breakB_prepend (f : Flags) {p n : CharProps} (hp : p.gcb = .Prepend) (hn : ¬ n.isControl) :
    breakB f p n = false := by
  have hp' : ¬ p.isControl := by simp [CharProps.isControl, hp]
  unfold breakB
  rw [not_crlf (Or.inl hp'), ctl_false hp', ctl_false hn]
  simp [hp]

theorem breakB_hangul (f : Flags) {p n : CharProps}
    (h : (p.gcb = .L ∧ (n.gcb = .L ∨ n.gcb = .V ∨ n.gcb = .LV ∨ n.gcb = .LVT)) ∨
      ((p.gcb = .LV ∨ p.gcb = .V) ∧ (n.gcb = .V ∨ n.gcb = .T)) ∨
      ((p.gcb = .LVT ∨ p.gcb = .T) ∧ n.gcb = .T)) : breakB f p n = false := by
  rcases h with ⟨h1, h2 | h2 | h2 | h2⟩ | ⟨h1 | h1, h2 | h2⟩ | ⟨h1 | h1, h2⟩ <;> simp [breakB, isCtl, h1, h2]

/-- Before a consonant, after a consonant or a joiner. -/
theorem breakB_consonant (f : Flags) {p n : CharProps} (cp : p.Consistent) (cn : n.Consistent)
    (hp : p.incb ≠ .None) (hn : n.incb = .Consonant) : breakB f p n = !f.lnk := by
  have hn1 := cn.consonant hn
  have hn2 : n.extPict = false := by
    cases h : n.extPict
    · rfl
    · have := (cn.pict h).2
      rw [hn] at this; cases this
  have hp1 : p.gcb = .Other ∨ p.gcb = .Extend ∨ p.gcb = .ZWJ := by
    cases h : p.incb
    · exact absurd h hp
    · exact Or.inl (cp.consonant h)
    · exact Or.inr (cp.joiner (Or.inl h))
    · exact Or.inr (cp.joiner (Or.inr h))
  rcases hp1 with h | h | h <;> simp only [breakB, isCtl, h, hn, hn1, hn2] <;> cases f.lnk <;> cases f.emoZ <;> cases f.ri <;> rfl

/-- Before a pictograph, after ZWJ. -/
theorem breakB_pict (f : Flags) {p n : CharProps} (cn : n.Consistent)
    (hp : p.gcb = .ZWJ) (hn : n.extPict = true) : breakB f p n = !f.emoZ := by
  have hn1 := (cn.pict hn).1
  have hn2 := (cn.pict hn).2
  simp only [breakB, isCtl, hp, hn, hn1, hn2] <;> cases f.lnk <;> cases f.emoZ <;> cases f.ri <;> rfl

/-- Between regional indicators. -/
theorem breakB_ri (f : Flags) {p n : CharProps} (cn : n.Consistent)
    (hp : p.gcb = .RegionalIndicator) (hn : n.gcb = .RegionalIndicator) : breakB f p n = !f.ri := by
  have hn1 : n.extPict = false := by
    cases h : n.extPict
    · rfl
    · have := (cn.pict h).1
      rw [hn] at this; cases this
  have hn2 : n.incb ≠ .Consonant := by
    intro h
    have := cn.consonant h
    rw [hn] at this; cases this
  have hn3 : (n.incb == .Consonant) = false := by simpa using hn2
  simp only [breakB, isCtl, hp, hn, hn1, hn3] <;> cases f.lnk <;> cases f.emoZ <;> cases f.ri <;> rfl

/-- Between plain characters and controls. -/
theorem breakB_plain (f : Flags) {p n : CharProps} (hp : p.gcb = .Other) (hn : n = CharProps.none) :
    breakB f p n = true := by
  simp only [breakB, isCtl, hp, hn, CharProps.none] <;> cases f.lnk <;> cases f.emoZ <;> cases f.ri <;> rfl

/-! Facts about contexts -/

theorem flags_ri_run (R : Text) (hR : ∀ c post, R = c :: post → c.gcb ≠ .RegionalIndicator) (rs : Text)
    (hrs : ∀ r ∈ rs, r.gcb = .RegionalIndicator) : (flags (rs ++ R)).ri = (rs.length % 2 == 1) := by
  induction rs with
  | nil =>
    cases R with
    | nil => rfl
    | cons c R =>
      have := hR c R rfl
      simp [flags, Flags.next, this]
  | cons r rs ih =>
    have h := ih (fun x hx => hrs x (by simp [hx]))
    have hr := hrs r (by simp)
    simp only [List.cons_append, flags, Flags.next, h, hr, List.length_cons, beq_self_eq_true, Bool.true_and]
    rcases Nat.mod_two_eq_zero_or_one rs.length with h | h
    · rw [h, show (rs.length + 1) % 2 = 1 by omega]; rfl
    · rw [h, show (rs.length + 1) % 2 = 0 by omega]; rfl

theorem flags_lnk_run (R : Text) (c : CharProps) (hc : c.incb = .Consonant) (xs : Text)
    (hxs : ∀ x ∈ xs, x.incb = .Extend ∨ x.incb = .Linker) :
    (flags (xs ++ c :: R)).con = true ∧ ((flags (xs ++ c :: R)).lnk = true ↔ ∃ x ∈ xs, x.incb = .Linker) := by
  induction xs with
  | nil => simp [flags, Flags.next, hc, joiner]
  | cons x xs ih =>
    obtain ⟨h1, h2⟩ := ih (fun y hy => hxs y (by simp [hy]))
    have hx := hxs x (by simp)
    have hj : joiner x = true := (joiner_iff x).mpr hx
    constructor
    · simp [flags, Flags.next, hj, h1]
    · simp only [List.cons_append, flags, Flags.next, Bool.or_eq_true, Bool.and_eq_true, beq_iff_eq, h1, and_true, hj,
        true_and, h2, List.mem_cons, exists_eq_or_imp]

theorem flags_emo_run (R : Text) (p : CharProps) (hp : p.extPict = true) (xs : Text) (hxs : ∀ x ∈ xs, x.gcb = .Extend) :
    (flags (xs ++ p :: R)).emo = true :=
  (emo_iff _).mpr ⟨xs, p, R, rfl, hp, hxs⟩

end Textseg
