import Verif.Proofs.BufioScanner
import Verif.Model.AllTokens
/-!
# A Scanner calls the split function only with data that fits into its buffer

So two split functions that agree on such data cannot be told apart by a Scanner, whatever the reader does.
-/

namespace Textseg
open Spec

namespace Scanner
variable {σ : Type}

/-- The offsets are in order and the buffer has at most `C` bytes. -/
def Fits (C : Nat) (s : Scanner σ) : Prop := s.Bounds ∧ s.buf.length ≤ C

theorem fits_setErr {C : Nat} {s : Scanner σ} (h : s.Fits C) (e : IOErr) : (s.setErr e).Fits C := by
  unfold setErr
  split <;> exact h

theorem fits_readOnce {C : Nat} {s : Scanner σ} (read : Reader σ) (h : s.Fits C) : (readOnce read s).2.Fits C := by
  obtain ⟨⟨h1, h2⟩, h3⟩ := h
  have hl := overwrite_length s.buf s.stop ((read s.rd (s.buf.length - s.stop)).bytes.take (s.buf.length - s.stop))
    (by rw [List.length_take]; omega)
  simp only [readOnce]
  split
  · apply fits_setErr
    refine ⟨⟨h1, ?_⟩, ?_⟩ <;> simp only [hl] <;> assumption
  · next hn =>
    have hb : s.stop + (read s.rd (s.buf.length - s.stop)).n.toNat ≤ s.buf.length := by omega
    split
    · exact fits_setErr ⟨⟨by simp only; omega, by simp only [hl]; exact hb⟩, by simp only [hl]; exact h3⟩ _
    · split
      · exact ⟨⟨by simp only; omega, by simp only [hl]; exact hb⟩, by simp only [hl]; exact h3⟩
      · exact ⟨⟨by simp only; omega, by simp only [hl]; exact hb⟩, by simp only [hl]; exact h3⟩

theorem fits_readLoop {C : Nat} (read : Reader σ) (left : Nat) : ∀ {s : Scanner σ}, s.Fits C → (readLoop read left s).Fits C := by
  induction left with
  | zero =>
    intro s h
    have := fits_readOnce read h
    rw [readLoop]
    split
    · next e => rw [e] at this; exact this
    · next e => rw [e] at this; exact fits_setErr this _
  | succ left ih =>
    intro s h
    have := fits_readOnce read h
    rw [readLoop]
    split
    · next e => rw [e] at this; exact this
    · next e => rw [e] at this; exact ih this

theorem fits_grow {C M : Nat} {s s' : Scanner σ} (hM : M ≤ C) (h : s.Fits C) (hz : s.stop = s.buf.length → s.start = 0)
    (w : List UInt8) (hw : w.length = s.stop - s.start) (hg : s.grow M w = some s') : s'.Fits C := by
  unfold grow at hg
  split at hg
  · next hf =>
    split at hg
    · cases hg
    · next hlt =>
      cases hg
      have h0 := hz hf
      have hn : newSize M s.buf.length ≤ M := by unfold newSize; omega
      have hn' : s.buf.length ≤ newSize M s.buf.length := by unfold newSize startBufSize; split <;> omega
      have hl := overwrite_length (List.replicate (newSize M s.buf.length) (0 : UInt8)) 0 w (by rw [List.length_replicate]; omega)
      rw [List.length_replicate] at hl
      refine ⟨⟨Nat.zero_le _, ?_⟩, ?_⟩
      · simp only [hl]; omega
      · simp only [hl]; omega
  · cases hg
    exact h

theorem fits_more {C M : Nat} {s : Scanner σ} (read : Reader σ) (hM : M ≤ C) (h : s.Fits C) {o : Option Bool} {s' : Scanner σ}
    (hm : more read M s = .ok (o, s')) : s'.Fits C := by
  unfold more at hm
  split at hm
  · cases hm
    exact ⟨⟨Nat.le_refl _, Nat.zero_le _⟩, h.2⟩
  · rw [window_eq h.1] at hm
    simp only [bind, Except.bind] at hm
    obtain ⟨k1, k2, k3, k4, -⟩ := shift_spec h.1
    have hf : (s.shift s.win).Fits C := ⟨k1, by rw [k3]; exact h.2⟩
    have hw : s.win.length = (s.shift s.win).stop - (s.shift s.win).start := by rw [← win_length k1, k2]
    split at hm
    · cases hm
      exact fits_setErr hf _
    · next hg =>
      cases hm
      exact fits_readLoop read _ (fits_grow hM hf k4 _ hw hg)

theorem fits_round {C M : Nat} {s : Scanner σ} (split : SplitFunc) (read : Reader σ) (hM : M ≤ C) (h : s.Fits C) {o : Option Bool}
    {s' : Scanner σ} (hr : round split read M s = .ok (o, s')) : s'.Fits C := by
  unfold round at hr
  split at hr
  · rw [window_eq h.1] at hr
    simp only [bind, Except.bind] at hr
    split at hr
    · cases hr
    · next r _ =>
      split at hr
      · split at hr
        · cases hr; exact h
        · cases hr; exact fits_setErr h _
      · split at hr
        · cases hr; exact fits_setErr h _
        · next hadv =>
          have hf : ({ s with start := s.start + r.advance, token := r.token } : Scanner σ).Fits C :=
            ⟨⟨by have := h.1.1; simp only; omega, h.1.2⟩, h.2⟩
          split at hr
          · split at hr
            · cases hr; exact hf
            · split at hr
              · cases hr
              · cases hr; exact hf
          · exact fits_more read hM hf hr
  · exact fits_more read hM h hr

theorem round_congr {C M : Nat} {s : Scanner σ} {f g : SplitFunc} (read : Reader σ) (h : s.Fits C)
    (hfg : ∀ data atEOF, data.length ≤ C → f data atEOF = g data atEOF) : round f read M s = round g read M s := by
  unfold round
  split
  · rw [window_eq h.1]
    simp only [bind, Except.bind]
    rw [hfg _ _ (by rw [win_length h.1]; have := h.1.2; have := h.2; omega)]
  · rfl

theorem loop_congr {C M : Nat} {f g : SplitFunc} (read : Reader σ) (hM : M ≤ C)
    (hfg : ∀ data atEOF, data.length ≤ C → f data atEOF = g data atEOF) (fuel : Nat) : ∀ {s : Scanner σ}, s.Fits C →
    loop f read M fuel s = loop g read M fuel s ∧ ∀ b s', loop g read M fuel s = .ok (b, s') → s'.Fits C := by
  induction fuel with
  | zero => intro s _; exact ⟨rfl, fun b s' h => by cases h⟩
  | succ fuel ih =>
    intro s h
    have e := round_congr (M := M) read h hfg
    unfold loop
    rw [e]
    rcases hr : round g read M s with p | ⟨o, s1⟩
    · exact ⟨rfl, fun b s' h => by cases h⟩
    · have h1 := fits_round g read hM h hr
      cases o with
      | some b => exact ⟨rfl, fun b s' h => by cases h; exact h1⟩
      | none => exact ih h1

theorem Scan_congr {C M : Nat} {f g : SplitFunc} (read : Reader σ) (hM : M ≤ C)
    (hfg : ∀ data atEOF, data.length ≤ C → f data atEOF = g data atEOF) {s : Scanner σ} (h : s.Fits C) :
    s.Scan f read M = s.Scan g read M ∧ ∀ b s', s.Scan g read M = .ok (b, s') → s'.Fits C := by
  unfold Scan
  split
  · exact ⟨rfl, fun b s' h' => by cases h'; exact h⟩
  · exact loop_congr read hM hfg _ h

theorem scanTimes_congr {C M : Nat} {f g : SplitFunc} (read : Reader σ) (hM : M ≤ C)
    (hfg : ∀ data atEOF, data.length ≤ C → f data atEOF = g data atEOF) (n : Nat) : ∀ {s : Scanner σ}, s.Fits C →
    scanTimes f read M n s = scanTimes g read M n s := by
  induction n with
  | zero => intro s _; rfl
  | succ n ih =>
    intro s h
    obtain ⟨e, hf⟩ := Scan_congr read hM hfg h
    simp only [scanTimes, e]
    rcases hr : s.Scan g read M with p | ⟨b, s1⟩
    · rfl
    · exact ih (hf b s1 hr)

theorem collect_congr {C M : Nat} {f g : SplitFunc} (read : Reader σ) (hM : M ≤ C)
    (hfg : ∀ data atEOF, data.length ≤ C → f data atEOF = g data atEOF) (fuel : Nat) : ∀ {s : Scanner σ}, s.Fits C →
    collect f read M fuel s = collect g read M fuel s := by
  induction fuel with
  | zero => intro s _; rfl
  | succ fuel ih =>
    intro s h
    obtain ⟨e, hf⟩ := Scan_congr read hM hfg h
    simp only [collect, e]
    rcases hr : s.Scan g read M with p | ⟨b, s1⟩
    · rfl
    · have := ih (hf b s1 hr)
      cases b
      · rfl
      · simp only [bind, Except.bind, this]

theorem collectRefs_congr {C M : Nat} {f g : SplitFunc} (read : Reader σ) (hM : M ≤ C)
    (hfg : ∀ data atEOF, data.length ≤ C → f data atEOF = g data atEOF) (fuel : Nat) : ∀ {s : Scanner σ}, s.Fits C →
    collectRefs f read M fuel s = collectRefs g read M fuel s := by
  induction fuel with
  | zero => intro s _; rfl
  | succ fuel ih =>
    intro s h
    obtain ⟨e, hf⟩ := Scan_congr read hM hfg h
    simp only [collectRefs, e]
    rcases hr : s.Scan g read M with p | ⟨b, s1⟩
    · rfl
    · have := ih (hf b s1 hr)
      cases b
      · rfl
      · simp only [bind, Except.bind, this]

theorem fits_new (rd : σ) (b0 M : Nat) : (newScanner rd b0).Fits (max b0 M) :=
  ⟨⟨Nat.le_refl _, Nat.zero_le _⟩, by simp only [newScanner, List.length_replicate]; omega⟩

end Scanner
end Textseg
