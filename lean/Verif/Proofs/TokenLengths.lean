import Verif.Proofs.AllTokens
import Verif.Proofs.ScannerTotal
/-!
# allTokens on inputs of any length: number and lengths of the tokens
-/

namespace Textseg
open Spec Scanner

/-- The buffers of `s` are still there in `s'`, with the same lengths. -/
def Later {σ : Type} (s s' : Scanner σ) : Prop := s.heap.map List.length <+: s'.heap.map List.length

theorem Later.refl {σ : Type} (s : Scanner σ) : Later s s := List.prefix_refl _

theorem Later.trans {σ : Type} {s t u : Scanner σ} (h : Later s t) (h' : Later t u) : Later s u := List.IsPrefix.trans h h'

theorem later_of_eq {σ : Type} {s s' : Scanner σ} (h1 : s'.old = s.old) (h2 : s'.buf.length = s.buf.length) : Later s s' := by
  unfold Later heap
  rw [List.map_append, List.map_append, h1]
  simp only [List.map_cons, List.map_nil, h2]
  exact List.prefix_refl _

namespace Scanner
variable {σ : Type}

theorem setErr_old (s : Scanner σ) (e : IOErr) : (s.setErr e).old = s.old := by
  unfold setErr; split <;> rfl

theorem setErr_later (s : Scanner σ) (e : IOErr) : Later s (s.setErr e) :=
  later_of_eq (setErr_old s e) (by rw [(setErr_fields s e).2.1])

theorem readOnce_old (read : Reader σ) (s : Scanner σ) : (readOnce read s).2.old = s.old := by
  simp only [readOnce]
  split
  · rw [setErr_old]
  · split
    · rw [setErr_old]
    · split <;> rfl

theorem readLoop_later {M C : Nat} {read : Reader σ} (left : Nat) : ∀ {s : Scanner σ}, Sane M C s → s.stop < s.buf.length →
    Later s (readLoop read left s) := by
  induction left with
  | zero =>
    intro s h hroom
    have h1 := readOnce_old read s
    obtain ⟨g1, g2, _⟩ := readOnce_sane (read := read) h hroom
    rw [readLoop]
    rcases hx : readOnce read s with ⟨b, s'⟩
    rw [hx] at h1 g2
    cases b with
    | true => exact later_of_eq h1 g2
    | false => exact (later_of_eq h1 g2).trans (setErr_later s' _)
  | succ left ih =>
    intro s h hroom
    have h1 := readOnce_old read s
    obtain ⟨g1, g2, _, _, _, g6⟩ := readOnce_sane (read := read) h hroom
    rw [readLoop]
    rcases hx : readOnce read s with ⟨b, s'⟩
    rw [hx] at h1 g1 g2 g6
    cases b with
    | true => exact later_of_eq h1 g2
    | false => exact (later_of_eq h1 g2).trans (ih g1 (g6 rfl))

theorem shift_later {s : Scanner σ} (h : s.Bounds) : Later s (s.shift s.win) := by
  refine later_of_eq ?_ (shift_spec h).2.2.1
  unfold shift
  split <;> rfl

theorem grow_later {M : Nat} {s s' : Scanner σ} {w : List UInt8} (h : s.grow M w = some s') : Later s s' := by
  unfold grow at h
  split at h
  · split at h
    · cases h
    · cases h
      unfold Later heap
      simp only [List.map_append, List.map_cons, List.map_nil]
      exact List.prefix_append _ _
  · cases h; exact Later.refl _

theorem more_later {M C : Nat} {read : Reader σ} {s s' : Scanner σ} {x : Option Bool} (h : Sane M C s)
    (hm : s.more read M = .ok (x, s')) : Later s s' ∧ x ≠ some true := by
  unfold more at hm
  by_cases he : s.err = none
  · rw [if_neg (by rw [he]; simp), window_eq h.bounds] at hm
    simp only [bind, Except.bind] at hm
    obtain ⟨h1, h2, h3, h4, _, _, h7⟩ := shift_spec h.bounds
    have hsh : Sane M C (s.shift s.win) := ⟨by rw [h7]; exact h.notDone, h1, by rw [h3]; exact h.size⟩
    have hg := grow_spec h1 h4 hsh.size
    rw [h2] at hg
    rcases hg with ⟨hg, _⟩ | ⟨t, hg, g1, _, g3, g4, _, _, g7⟩
    · rw [hg] at hm
      cases hm
      exact ⟨(shift_later h.bounds).trans (setErr_later _ _), by simp⟩
    · rw [hg] at hm
      cases hm
      have ht : Sane M C t := ⟨by rw [g7]; exact hsh.notDone, g1, g4⟩
      exact ⟨((shift_later h.bounds).trans (grow_later hg)).trans (readLoop_later _ ht g3), by simp⟩
  · rw [if_pos he] at hm
    cases hm
    exact ⟨later_of_eq rfl rfl, by simp⟩

/-- The token is as long as the part of the buffer that was consumed for it. -/
def TokenFits (s : Scanner σ) : Prop := ∃ tok, s.token = some tok ∧ tok.length ≤ s.start

theorem round_later {split : SplitFunc} (hsp : GoodSplit split)
    (htake : ∀ d b r tok, split d b = .ok r → r.token = some tok → tok.length ≤ r.advance) {M C : Nat} {read : Reader σ}
    {s s' : Scanner σ} {x : Option Bool} (h : Sane M C s) (hm : s.round split read M = .ok (x, s')) :
    Later s s' ∧ (x = some true → TokenFits s') := by
  unfold round at hm
  split at hm
  · rw [window_eq h.bounds] at hm
    obtain ⟨r, hr, hre, hra, hrt⟩ := hsp.total s.win (s.err != none)
    have hwl := win_length h.bounds
    simp only [bind, Except.bind, hr, hre] at hm
    rw [if_neg (by omega)] at hm
    cases ht : r.token with
    | some tok =>
      have hadv : 0 < r.advance := by
        rcases Nat.eq_zero_or_pos r.advance with h0 | h0
        · rw [hrt.mpr h0] at ht; cases ht
        · exact h0
      simp only [ht] at hm
      rw [if_pos (Or.inr hadv)] at hm
      cases hm
      refine ⟨later_of_eq rfl rfl, fun _ => ⟨tok, rfl, ?_⟩⟩
      have := htake _ _ _ _ hr ht
      show tok.length ≤ s.start + r.advance
      omega
    | none =>
      have h0 := hrt.mp ht
      simp only [ht, h0, Nat.add_zero] at hm
      have hs : Sane M C ({ s with token := none } : Scanner σ) := ⟨h.notDone, h.bounds, h.size⟩
      obtain ⟨a, b⟩ := more_later hs hm
      exact ⟨Later.trans (later_of_eq rfl rfl) a, fun hx => absurd hx b⟩
  · obtain ⟨a, b⟩ := more_later h hm
    exact ⟨a, fun hx => absurd hx b⟩

theorem loop_later {split : SplitFunc} (hsp : GoodSplit split)
    (htake : ∀ d b r tok, split d b = .ok r → r.token = some tok → tok.length ≤ r.advance) {M C : Nat} {read : Reader σ}
    (fuel : Nat) : ∀ {s s' : Scanner σ} {b : Bool}, Sane M C s → s.loop split read M fuel = .ok (b, s') →
    Later s s' ∧ (b = true → TokenFits s') := by
  induction fuel with
  | zero => intro s s' b _ h; cases h
  | succ fuel ih =>
    intro s s' b h hx
    obtain ⟨x, s1, h1, h2, _⟩ := round_sane hsp (read := read) h
    obtain ⟨g1, g2⟩ := round_later hsp htake h h1
    unfold loop at hx
    simp only [bind, Except.bind, h1] at hx
    cases x with
    | some b' =>
      cases hx
      exact ⟨g1, fun hb => g2 (by rw [hb])⟩
    | none =>
      obtain ⟨e1, e2⟩ := ih h2 hx
      exact ⟨g1.trans e1, e2⟩

theorem Scan_later {split : SplitFunc} (hsp : GoodSplit split)
    (htake : ∀ d b r tok, split d b = .ok r → r.token = some tok → tok.length ≤ r.advance) {M C : Nat} {read : Reader σ}
    {s s' : Scanner σ} {b : Bool} (h : Sane M C s) (hx : s.Scan split read M = .ok (b, s')) :
    Later s s' ∧ (b = true → TokenFits s') := by
  unfold Scan at hx
  rw [if_neg (by rw [h.notDone]; simp)] at hx
  exact loop_later hsp htake _ h hx

end Scanner

/-- A slice of a buffer of `s` can be read in every later state, and has the same length. -/
theorem read_later {σ : Type} {s s' : Scanner σ} {tok : List UInt8} (h : Later s s') (hb : s.Bounds)
    (ht : s.token = some tok) (hl : tok.length ≤ s.start) :
    ∃ t, s.bytesRef.read s'.heap = .ok t ∧ t.length = tok.length := by
  obtain ⟨ext, hext⟩ := h
  have hget : (s'.heap.map List.length)[s.old.length]? = some s.buf.length := by
    rw [← hext]
    simp [heap]
  rw [List.getElem?_map] at hget
  cases hh : s'.heap[s.old.length]? with
  | none => rw [hh] at hget; cases hget
  | some b =>
    rw [hh] at hget
    simp only [Option.map, Option.some.injEq] at hget
    have hle : s.start ≤ b.length := by rw [hget]; exact Nat.le_trans hb.1 hb.2
    refine ⟨(b.take s.start).drop (s.start - tok.length), ?_, ?_⟩
    · unfold SliceRef.read bytesRef
      simp only [hh, ht, Option.getD]
      rw [if_pos ⟨Nat.sub_le _ _, hle⟩]
    · rw [List.length_drop, List.length_take]
      omega

theorem collectRefs_lengths {σ : Type} {split : SplitFunc} (hsp : GoodSplit split)
    (htake : ∀ d b r tok, split d b = .ok r → r.token = some tok → tok.length ≤ r.advance) {M C : Nat} {read : Reader σ}
    (n : Nat) : ∀ {s : Scanner σ} {toks : List (List UInt8)} {e : Option IOErr}, Sane M C s →
    s.collect split read M n = .ok (toks, e) →
    ∃ refs s' , collectRefs split read M n s = .ok (refs, s') ∧ s'.Err = e ∧ Later s s' ∧
      ∀ s'', Later s' s'' → ∃ toks', refs.mapM (SliceRef.read s''.heap) = .ok toks' ∧
        toks'.map List.length = toks.map List.length := by
  induction n with
  | zero => intro s toks e _ h; cases h
  | succ n ih =>
    intro s toks e h hc
    obtain ⟨b, s1, h1, h2⟩ := Scan_sane hsp (read := read) h
    obtain ⟨g1, g2⟩ := Scan_later hsp htake h h1
    unfold collect at hc
    simp only [bind, Except.bind, h1] at hc
    cases b with
    | false =>
      cases hc
      refine ⟨[], s1, ?_, rfl, g1, fun s'' _ => ⟨[], rfl, rfl⟩⟩
      rw [collectRefs]
      simp only [bind, Except.bind, h1]
    | true =>
      simp only at hc
      cases hy : s1.collect split read M n with
      | error e => simp only [hy] at hc; cases hc
      | ok y =>
        obtain ⟨toks1, e1⟩ := y
        simp only [hy] at hc
        cases hc
        obtain ⟨refs, s', k1, k2, k3, k4⟩ := ih h2 hy
        obtain ⟨tok, ht, hl⟩ := g2 rfl
        refine ⟨s1.bytesRef :: refs, s', ?_, k2, g1.trans k3, ?_⟩
        · rw [collectRefs]
          simp only [bind, Except.bind, h1, k1]
        · intro s'' hs''
          obtain ⟨toks', m1, m2⟩ := k4 s'' hs''
          obtain ⟨t, r1, r2⟩ := read_later (k3.trans hs'') h2.bounds ht hl
          refine ⟨t :: toks', mapM_cons _ _ _ r1 m1, ?_⟩
          simp only [List.map_cons, m2, r2, Bytes, ht, Option.getD]

theorem allTokens_lengths (data : List UInt8) {toks : List (List UInt8)} {e : Option IOErr}
    (htake : ∀ d b r tok, ScanGraphemeClusters d b = .ok r → r.token = some tok → tok.length ≤ r.advance)
    (h : (newScanner data 0).collect ScanGraphemeClusters bytesReader maxScanTokenSize (data.length + 1) = .ok (toks, e)) :
    ∃ toks', allTokens data ScanGraphemeClusters = .ok (toks', e) ∧ toks'.map List.length = toks.map List.length := by
  obtain ⟨refs, s', h1, h2, _, h4⟩ := collectRefs_lengths goodSplit_grapheme htake (data.length + 1)
    (newScanner_sane data 0 maxScanTokenSize (by decide)) h
  obtain ⟨toks', h5, h6⟩ := h4 s' (Later.refl _)
  refine ⟨toks', ?_, h6⟩
  unfold allTokens
  simp only [bind, Except.bind, h1, h5, h2]

end Textseg
