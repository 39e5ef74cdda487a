import Verif.Proofs.Streaming
/-!
# The Scanner returns, whatever the reader does
-/

namespace Textseg
open Spec

namespace Scanner
variable {σ : Type}

/-- The invariant for arbitrary readers. -/
structure Sane (M C : Nat) (s : Scanner σ) : Prop where
  notDone : s.done = false
  bounds : s.Bounds
  size : SizeOk M C s.buf.length

theorem setErr_fields (s : Scanner σ) (e : IOErr) : (s.setErr e).done = s.done ∧ (s.setErr e).buf = s.buf ∧
    (s.setErr e).start = s.start ∧ (s.setErr e).stop = s.stop ∧ (s.setErr e).err ≠ none := by
  unfold setErr
  split
  · exact ⟨rfl, rfl, rfl, rfl, by simp⟩
  · rename_i h
    exact ⟨rfl, rfl, rfl, rfl, fun h' => h (Or.inl h')⟩

theorem setErr_sane {M C : Nat} {s : Scanner σ} (h : Sane M C s) (e : IOErr) : Sane M C (s.setErr e) := by
  obtain ⟨h1, h2, h3, h4, _⟩ := setErr_fields s e
  refine ⟨by rw [h1]; exact h.notDone, ?_, by rw [h2]; exact h.size⟩
  unfold Bounds
  rw [h2, h3, h4]; exact h.bounds

theorem readOnce_sane {M C : Nat} {read : Reader σ} {s : Scanner σ} (h : Sane M C s) (hroom : s.stop < s.buf.length) :
    Sane M C (readOnce read s).2 ∧ (readOnce read s).2.buf.length = s.buf.length ∧
    (readOnce read s).2.start = s.start ∧ s.stop ≤ (readOnce read s).2.stop ∧
    ((readOnce read s).1 = true → (readOnce read s).2.err ≠ none ∨ s.stop < (readOnce read s).2.stop) ∧
    ((readOnce read s).1 = false → (readOnce read s).2.stop < (readOnce read s).2.buf.length) := by
  obtain ⟨r, hr⟩ : ∃ r, read s.rd (s.buf.length - s.stop) = r := ⟨_, rfl⟩
  have hb := h.bounds
  have hl := overwrite_length s.buf s.stop (r.bytes.take (s.buf.length - s.stop)) (by
    rw [List.length_take]; unfold Bounds at hb; omega)
  have key : ∀ m : Nat, m ≤ s.buf.length - s.stop → Sane M C ({ s with
      rd := r.next, buf := overwrite s.buf s.stop (r.bytes.take (s.buf.length - s.stop)), stop := s.stop + m } : Scanner σ) := by
    intro m hm
    refine ⟨h.notDone, ⟨?_, ?_⟩, ?_⟩
    · show s.start ≤ s.stop + m
      have := hb.1; omega
    · show s.stop + m ≤ (overwrite s.buf s.stop (r.bytes.take (s.buf.length - s.stop))).length
      omega
    · show SizeOk M C (overwrite s.buf s.stop (r.bytes.take (s.buf.length - s.stop))).length
      rw [hl]; exact h.size
  simp only [readOnce, hr]
  by_cases hn : r.n < 0 ∨ ((s.buf.length - s.stop : Nat) : Int) < r.n
  · rw [if_pos hn]
    have h1 := setErr_sane (key 0 (Nat.zero_le _)) .badReadCount
    obtain ⟨_, f2, f3, f4, f5⟩ := setErr_fields ({ s with
      rd := r.next, buf := overwrite s.buf s.stop (r.bytes.take (s.buf.length - s.stop)) } : Scanner σ) .badReadCount
    refine ⟨h1, ?_, f3, by rw [f4]; exact Nat.le_refl _, fun _ => Or.inl f5, fun hx => by cases hx⟩
    rw [f2]; exact hl
  · rw [if_neg hn]
    have hm : r.n.toNat ≤ s.buf.length - s.stop := by omega
    have hk := key r.n.toNat hm
    cases he : r.err with
    | some e =>
      have h1 := setErr_sane hk e
      obtain ⟨_, f2, f3, f4, f5⟩ := setErr_fields ({ s with
        rd := r.next, buf := overwrite s.buf s.stop (r.bytes.take (s.buf.length - s.stop)), stop := s.stop + r.n.toNat } : Scanner σ) e
      refine ⟨h1, ?_, f3, by rw [f4]; exact Nat.le_add_right _ _, fun _ => Or.inl f5, fun hx => by cases hx⟩
      rw [f2]; exact hl
    | none =>
      by_cases hpos : 0 < r.n
      · simp only [if_pos hpos]
        refine ⟨⟨hk.notDone, hk.bounds, hk.size⟩, hl, trivial, Nat.le_add_right _ _, fun _ => Or.inr ?_, fun hx => by cases hx⟩
        omega
      · simp only [if_neg hpos]
        refine ⟨hk, hl, trivial, Nat.le_add_right _ _, (fun hx => by cases hx), fun _ => ?_⟩
        rw [hl]; omega

theorem readLoop_sane {M C : Nat} {read : Reader σ} (left : Nat) : ∀ {s : Scanner σ}, Sane M C s → s.stop < s.buf.length →
    Sane M C (readLoop read left s) ∧ (readLoop read left s).start = s.start ∧ s.stop ≤ (readLoop read left s).stop ∧
    ((readLoop read left s).err ≠ none ∨ s.stop < (readLoop read left s).stop) := by
  induction left with
  | zero =>
    intro s h hroom
    obtain ⟨h1, h2, h3, h4, h5, h6⟩ := readOnce_sane (read := read) h hroom
    rw [readLoop]
    rcases hx : readOnce read s with ⟨b, s'⟩
    rw [hx] at h1 h2 h3 h4 h5 h6
    cases b with
    | true => exact ⟨h1, h3, h4, h5 rfl⟩
    | false =>
      obtain ⟨_, f2, f3, f4, f5⟩ := setErr_fields s' .noProgress
      exact ⟨setErr_sane h1 _, f3.trans h3, by simp only; rw [f4]; exact h4, Or.inl f5⟩
  | succ left ih =>
    intro s h hroom
    obtain ⟨h1, h2, h3, h4, h5, h6⟩ := readOnce_sane (read := read) h hroom
    rw [readLoop]
    rcases hx : readOnce read s with ⟨b, s'⟩
    rw [hx] at h1 h2 h3 h4 h5 h6
    cases b with
    | true => exact ⟨h1, h3, h4, h5 rfl⟩
    | false =>
      simp only at h1 h3 h4 h6
      obtain ⟨g1, g2, g3, g4⟩ := ih h1 (h6 trivial)
      refine ⟨g1, g2.trans h3, Nat.le_trans h4 g3, ?_⟩
      rcases g4 with g4 | g4
      · exact Or.inl g4
      · exact Or.inr (by simp only; omega)

theorem more_sane {M C : Nat} {read : Reader σ} {s : Scanner σ} (h : Sane M C s) :
    ∃ x s', s.more read M = .ok (x, s') ∧ Sane M C s' ∧
      (x = none → s.err = none ∧ (s'.err ≠ none ∨ s.win.length < s'.win.length)) := by
  by_cases he : s.err = none
  · obtain ⟨h1, h2, h3, h4, h5, h6, h7⟩ := shift_spec h.bounds
    have hsh : Sane M C (s.shift s.win) := ⟨by rw [h7]; exact h.notDone, h1, by rw [h3]; exact h.size⟩
    have hg := grow_spec h1 h4 hsh.size
    rw [h2] at hg
    unfold more
    rw [if_neg (by rw [he]; simp), window_eq h.bounds]
    simp only [bind, Except.bind]
    rcases hg with ⟨hg, hC⟩ | ⟨s', hg, g1, g2, g3, g4, g5, g6, g7⟩
    · rw [hg]
      exact ⟨_, _, rfl, setErr_sane hsh _, fun hx => by cases hx⟩
    · rw [hg]
      simp only
      have hs' : Sane M C s' := ⟨by rw [g7]; exact hsh.notDone, g1, g4⟩
      obtain ⟨r1, r2, r3, r4⟩ := readLoop_sane (read := read) maxConsecutiveEmptyReads hs' g3
      refine ⟨_, _, rfl, r1, fun _ => ⟨he, ?_⟩⟩
      rcases r4 with r4 | r4
      · exact Or.inl r4
      · right
        rw [← g2, win_length g1, win_length r1.bounds, r2]
        have := g1.1
        omega
  · unfold more
    rw [if_pos he]
    exact ⟨_, _, rfl, ⟨h.notDone, ⟨Nat.le_refl _, Nat.zero_le _⟩, h.size⟩, fun hx => by cases hx⟩

theorem round_sane {split : SplitFunc} (hsp : GoodSplit split) {M C : Nat} {read : Reader σ} {s : Scanner σ}
    (h : Sane M C s) :
    ∃ x s', s.round split read M = .ok (x, s') ∧ Sane M C s' ∧
      (x = none → s.err = none ∧ (s'.err ≠ none ∨ s.win.length < s'.win.length)) := by
  by_cases hcond : s.start < s.stop ∨ s.err ≠ none
  · have hwl := win_length h.bounds
    unfold round
    rw [if_pos hcond, window_eq h.bounds]
    obtain ⟨r, hr, hre, hra, hrt⟩ := hsp.total s.win (s.err != none)
    simp only [bind, Except.bind, hr, hre]
    rw [if_neg (by omega)]
    cases ht : r.token with
    | some tok =>
      have hadv : 0 < r.advance := by
        rcases Nat.eq_zero_or_pos r.advance with h0 | h0
        · rw [hrt.mpr h0] at ht; cases ht
        · exact h0
      simp only
      rw [if_pos (Or.inr hadv)]
      exact ⟨_, _, rfl, ⟨h.notDone, (drop_win h.bounds hra).1, h.size⟩, fun hx => by cases hx⟩
    | none =>
      have h0 := hrt.mp ht
      simp only [h0, Nat.add_zero]
      have hs : Sane M C ({ s with token := none } : Scanner σ) := ⟨h.notDone, h.bounds, h.size⟩
      exact more_sane hs
  · unfold round
    rw [if_neg hcond]
    exact more_sane h

theorem loop_sane {split : SplitFunc} (hsp : GoodSplit split) {M C : Nat} {read : Reader σ} (fuel : Nat) :
    ∀ {s : Scanner σ}, Sane M C s → 0 < fuel → (s.err = none → C + 2 ≤ fuel + s.win.length) →
    ∃ b s', s.loop split read M fuel = .ok (b, s') ∧ Sane M C s' := by
  induction fuel with
  | zero => intro s _ h; exact absurd h (by omega)
  | succ fuel ih =>
    intro s h _ hf
    obtain ⟨x, s', hx, hs, hn⟩ := round_sane hsp (read := read) h
    unfold loop
    simp only [bind, Except.bind, hx]
    cases x with
    | some b => exact ⟨b, s', rfl, hs⟩
    | none =>
      obtain ⟨he, hp⟩ := hn rfl
      have := hf he
      have hwl := win_length h.bounds
      have hb := h.bounds
      have hle : s.win.length ≤ C := by have := h.size.le; unfold Bounds at hb; omega
      refine ih hs (by omega) ?_
      intro he'
      rcases hp with hp | hp
      · exact absurd he' hp
      · omega

theorem Scan_sane {split : SplitFunc} (hsp : GoodSplit split) {M C : Nat} {read : Reader σ} {s : Scanner σ}
    (h : Sane M C s) : ∃ b s', s.Scan split read M = .ok (b, s') ∧ Sane M C s' := by
  unfold Scan
  rw [h.notDone, h.size.max]
  exact loop_sane hsp (C + 2) h (by omega) (fun _ => by omega)

theorem newScanner_sane (rd : σ) (b0 M : Nat) (hC : 0 < max b0 M) : Sane M (max b0 M) (newScanner rd b0) := by
  refine ⟨rfl, ⟨Nat.le_refl _, Nat.zero_le _⟩, ?_⟩
  simp only [newScanner, List.length_replicate, SizeOk]
  omega

theorem scanTimes_sane {split : SplitFunc} (hsp : GoodSplit split) {M C : Nat} {read : Reader σ} (n : Nat) :
    ∀ {s : Scanner σ}, Sane M C s → ∃ s', scanTimes split read M n s = .ok s' ∧ Sane M C s' := by
  induction n with
  | zero => intro s h; exact ⟨s, rfl, h⟩
  | succ n ih =>
    intro s h
    obtain ⟨b, s', h1, h2⟩ := Scan_sane hsp (read := read) h
    obtain ⟨s'', h3, h4⟩ := ih h2
    refine ⟨s'', ?_, h4⟩
    rw [scanTimes]
    simp only [bind, Except.bind, h1, h3]

end Scanner
end Textseg
