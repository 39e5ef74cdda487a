import Verif.Proofs.ScannerTotal
/-!
# The tokens that a Scanner has emitted at any time, also for readers that never end
-/

namespace Textseg
open Spec

namespace Scanner
variable {σ : Type}

/-- What holds between two rounds: `toks` have been emitted, and the Scanner holds what was delivered after them. -/
structure Emitted (split : SplitFunc) (M C : Nat) (s : Scanner (σ × List UInt8)) (toks : List (List UInt8))
    (consumed : List UInt8) : Prop where
  sane : Sane M C s
  log : s.rd.2 = consumed ++ s.win
  fin : ∀ more, (s.err = none ∨ more = []) → ∀ rest, SplitsTo split (s.win ++ more) rest →
    SplitsTo split (s.rd.2 ++ more) (toks ++ rest)

/-- The read loop adds what was delivered to the window and to the record. -/
theorem readLoop_logged {read : Reader σ} (hh : Honest read) (left : Nat) :
    ∀ {s : Scanner (σ × List UInt8)}, s.Bounds → s.err = none →
    ∃ new, (readLoop (logged read) left s).win = s.win ++ new ∧ (readLoop (logged read) left s).rd.2 = s.rd.2 ++ new := by
  induction left with
  | zero =>
    intro s hb he
    obtain ⟨h1, h2⟩ := hh s.rd.1 (s.buf.length - s.stop)
    rw [readLoop_count (r := logged read s.rd (s.buf.length - s.stop)) rfl h1 h2]
    cases hr : (logged read s.rd (s.buf.length - s.stop)).err with
    | some e =>
      simp only
      rw [setErr_of_none (by exact he)]
      exact ⟨_, afterRead_win hb (logged read s.rd (s.buf.length - s.stop)).next h2, rfl⟩
    | none =>
      simp only
      by_cases h : (logged read s.rd (s.buf.length - s.stop)).bytes = []
      · rw [if_pos h, setErr_of_none (by exact he), afterRead_nil]
        refine ⟨[], by rw [List.append_nil]; rfl, ?_⟩
        show s.rd.2 ++ (read s.rd.1 (s.buf.length - s.stop)).bytes = _
        rw [show (read s.rd.1 (s.buf.length - s.stop)).bytes = [] from h]
      · rw [if_neg h]
        exact ⟨_, afterRead_win hb (logged read s.rd (s.buf.length - s.stop)).next h2, rfl⟩
  | succ left ih =>
    intro s hb he
    obtain ⟨h1, h2⟩ := hh s.rd.1 (s.buf.length - s.stop)
    rw [readLoop_count (r := logged read s.rd (s.buf.length - s.stop)) rfl h1 h2]
    cases hr : (logged read s.rd (s.buf.length - s.stop)).err with
    | some e =>
      simp only
      rw [setErr_of_none (by exact he)]
      exact ⟨_, afterRead_win hb (logged read s.rd (s.buf.length - s.stop)).next h2, rfl⟩
    | none =>
      simp only
      by_cases h : (logged read s.rd (s.buf.length - s.stop)).bytes = []
      · rw [if_pos h, afterRead_nil]
        obtain ⟨new, g1, g2⟩ := ih (s := { s with rd := (logged read s.rd (s.buf.length - s.stop)).next }) hb he
        refine ⟨new, g1, ?_⟩
        rw [g2]
        show (s.rd.2 ++ (read s.rd.1 (s.buf.length - s.stop)).bytes) ++ new = _
        rw [show (read s.rd.1 (s.buf.length - s.stop)).bytes = [] from h, List.append_nil]
      · rw [if_neg h]
        exact ⟨_, afterRead_win hb (logged read s.rd (s.buf.length - s.stop)).next h2, rfl⟩

theorem more_emitted {split : SplitFunc} {read : Reader σ} (hh : Honest read) {M C : Nat}
    {s : Scanner (σ × List UInt8)} {toks : List (List UInt8)} {consumed : List UInt8} (h : Emitted split M C s toks consumed)
    {x : Option Bool} {s' : Scanner (σ × List UInt8)} (hx : s.more (logged read) M = .ok (x, s')) :
    x = some false ∨ (x = none ∧ Emitted split M C s' toks consumed) := by
  obtain ⟨x', s'', hx', hsane, _⟩ := more_sane (read := logged read) h.sane
  rw [hx] at hx'
  cases hx'
  by_cases he : s.err = none
  · obtain ⟨h1, h2, h3, h4, h5, h6, h7⟩ := shift_spec h.sane.bounds
    have hg := grow_spec (M := M) (C := C) h1 h4 (by rw [h3]; exact h.sane.size)
    rw [h2] at hg
    unfold more at hx
    rw [if_neg (by rw [he]; simp), window_eq h.sane.bounds] at hx
    simp only [bind, Except.bind] at hx
    rcases hg with ⟨hg, hC⟩ | ⟨t, hg, g1, g2, g3, g4, g5, g6, g7⟩
    · rw [hg] at hx
      cases hx
      exact Or.inl rfl
    · rw [hg] at hx
      cases hx
      obtain ⟨new, n1, n2⟩ := readLoop_logged hh maxConsecutiveEmptyReads g1 (by rw [g5, h5]; exact he)
      rw [g2] at n1
      rw [g6, h6] at n2
      refine Or.inr ⟨rfl, hsane, ?_, ?_⟩
      · rw [n1, n2, h.log, List.append_assoc]
      · intro more _ rest hr
        rw [n1, List.append_assoc] at hr
        rw [n2, List.append_assoc]
        exact h.fin (new ++ more) (Or.inl he) rest hr
  · unfold more at hx
    rw [if_pos he] at hx
    cases hx
    exact Or.inl rfl

theorem round_emitted {split : SplitFunc} (hsp : GoodSplit split) {read : Reader σ} (hh : Honest read) {M C : Nat}
    {s : Scanner (σ × List UInt8)} {toks : List (List UInt8)} {consumed : List UInt8} (h : Emitted split M C s toks consumed)
    {x : Option Bool} {s' : Scanner (σ × List UInt8)} (hx : s.round split (logged read) M = .ok (x, s')) :
    x = some false ∨ (x = none ∧ Emitted split M C s' toks consumed) ∨
    ∃ r tok, x = some true ∧ s'.token = some tok ∧ split s.win (s.err != none) = .ok r ∧ r.token = some tok ∧
      Emitted split M C s' (toks ++ [tok]) (consumed ++ s.win.take r.advance) := by
  obtain ⟨x', s'', hx', hsane, _⟩ := round_sane hsp (read := logged read) h.sane
  rw [hx] at hx'
  cases hx'
  have hwl := win_length h.sane.bounds
  by_cases hcond : s.start < s.stop ∨ s.err ≠ none
  · unfold round at hx
    rw [if_pos hcond, window_eq h.sane.bounds] at hx
    obtain ⟨r, hr, hre, hra, hrt⟩ := hsp.total s.win (s.err != none)
    simp only [bind, Except.bind, hr, hre] at hx
    rw [if_neg (by omega)] at hx
    cases ht : r.token with
    | some tok =>
      have hadv : 0 < r.advance := by
        rcases Nat.eq_zero_or_pos r.advance with h0 | h0
        · rw [hrt.mpr h0] at ht; cases ht
        · exact h0
      obtain ⟨d1, d2⟩ := drop_win (s := s) h.sane.bounds hra
      rw [ht] at hx
      simp only at hx
      rw [if_pos (Or.inr hadv)] at hx
      cases hx
      have hne : s.win ≠ [] := by
        intro h0
        rw [h0] at hra
        simp only [List.length_nil] at hra
        omega
      refine Or.inr (Or.inr ⟨r, tok, rfl, rfl, hr, ht, hsane, ?_, ?_⟩)
      · show s.rd.2 = consumed ++ s.win.take r.advance ++ Scanner.win ({ s with start := s.start + r.advance } : Scanner (σ × List UInt8))
        rw [d2, List.append_assoc, List.take_append_drop]
        exact h.log
      · intro more hm rest hrest
        have hw : SplitsTo split (s.win.drop r.advance ++ more) rest := by rw [← d2]; exact hrest
        rw [List.append_assoc]
        refine h.fin more hm (tok :: rest) ?_
        refine .cons _ r tok rest ?_ ?_ ht hre ?_
        · intro h0; exact hne (List.append_eq_nil_iff.mp h0).1
        · by_cases he : s.err = none
          · have hb : (s.err != none) = false := by rw [he]; rfl
            rw [hb] at hr
            exact hsp.final s.win r hr (by rw [ht]; simp) more true
          · have hb : (s.err != none) = true := by simpa using he
            rw [hb] at hr
            have hm' : more = [] := hm.resolve_left he
            rw [hm', List.append_nil]; exact hr
        · rw [List.drop_append_of_le_length hra]; exact hw
    | none =>
      have h0 := hrt.mp ht
      rw [ht] at hx
      simp only [h0, Nat.add_zero] at hx
      have hs : Emitted split M C ({ s with token := none } : Scanner (σ × List UInt8)) toks consumed :=
        ⟨⟨h.sane.notDone, h.sane.bounds, h.sane.size⟩, h.log, h.fin⟩
      rcases more_emitted hh hs hx with h1 | h1
      · exact Or.inl h1
      · exact Or.inr (Or.inl h1)
  · unfold round at hx
    rw [if_neg hcond] at hx
    rcases more_emitted hh h hx with h1 | h1
    · exact Or.inl h1
    · exact Or.inr (Or.inl h1)

theorem loop_emitted {split : SplitFunc} (hsp : GoodSplit split) {read : Reader σ} (hh : Honest read) {M C : Nat} (fuel : Nat) :
    ∀ {s : Scanner (σ × List UInt8)} {toks : List (List UInt8)} {consumed : List UInt8}, Emitted split M C s toks consumed →
    ∀ {s' : Scanner (σ × List UInt8)}, s.loop split (logged read) M fuel = .ok (true, s') →
    ∃ w b r tok, s'.token = some tok ∧ split w b = .ok r ∧ r.token = some tok ∧
      Emitted split M C s' (toks ++ [tok]) (consumed ++ w.take r.advance) := by
  induction fuel with
  | zero => intro s toks consumed h s' hx; cases hx
  | succ fuel ih =>
    intro s toks consumed h s' hx
    unfold loop at hx
    simp only [bind, Except.bind] at hx
    cases hr : s.round split (logged read) M with
    | error e => rw [hr] at hx; cases hx
    | ok y =>
      obtain ⟨x, t⟩ := y
      rw [hr] at hx
      rcases round_emitted hsp hh h hr with h1 | ⟨h1, h2⟩ | ⟨r, tok, h1, h2, h3, h4, h5⟩
      · subst h1; cases hx
      · subst h1; exact ih h2 hx
      · subst h1; cases hx
        exact ⟨_, _, r, tok, h2, h3, h4, h5⟩

theorem Scan_emitted {split : SplitFunc} (hsp : GoodSplit split) {read : Reader σ} (hh : Honest read) {M C : Nat}
    {s : Scanner (σ × List UInt8)} {toks : List (List UInt8)} {consumed : List UInt8} (h : Emitted split M C s toks consumed)
    {s' : Scanner (σ × List UInt8)} (hx : s.Scan split (logged read) M = .ok (true, s')) :
    ∃ w b r tok, s'.token = some tok ∧ split w b = .ok r ∧ r.token = some tok ∧
      Emitted split M C s' (toks ++ [tok]) (consumed ++ w.take r.advance) := by
  unfold Scan at hx
  rw [if_neg (by rw [h.sane.notDone]; simp)] at hx
  exact loop_emitted hsp hh _ h hx

theorem newScanner_emitted (split : SplitFunc) (rd : σ) (b0 M : Nat) (hC : 0 < max b0 M) :
    Emitted split M (max b0 M) (newScanner (rd, ([] : List UInt8)) b0) [] [] :=
  ⟨newScanner_sane _ b0 M hC, by simp [newScanner, win], fun more _ rest h => by simpa [newScanner, win] using h⟩

end Scanner
end Textseg
