import Verif.Proofs.Endless
/-!
# The memory that a Scanner uses
-/

namespace Textseg
open Spec

namespace Scanner
variable {σ : Type}

/-- The buffers of a Scanner that has needed to keep at most `B` bytes without a decision. -/
structure Mem (b0 M B : Nat) (s : Scanner σ) : Prop where
  cur : s.buf.length ≤ max b0 (min M (max startBufSize (2 * B)))
  old : ∀ o ∈ s.old, o.length ≤ B
  sum : (s.old.map List.length).sum ≤ 2 * B
  half : s.buf.length < M → (s.old.map List.length).sum ≤ s.buf.length

theorem Mem.congr {b0 M B : Nat} {s s' : Scanner σ} (h : Mem b0 M B s) (h1 : s'.buf.length = s.buf.length) (h2 : s'.old = s.old) :
    Mem b0 M B s' := by
  refine ⟨by rw [h1]; exact h.cur, by rw [h2]; exact h.old, by rw [h2]; exact h.sum, ?_⟩
  rw [h1, h2]; exact h.half

theorem newScanner_mem (rd : σ) (b0 M B : Nat) : Mem b0 M B (newScanner rd b0) := by
  refine ⟨?_, ?_, ?_, ?_⟩
  · simp only [newScanner, List.length_replicate]; omega
  · intro o ho; cases ho
  · exact Nat.zero_le _
  · intro _; exact Nat.zero_le _

theorem setErr_old (s : Scanner σ) (e : IOErr) : (s.setErr e).old = s.old := by
  unfold setErr
  split <;> rfl

theorem readOnce_old (read : Reader σ) (s : Scanner σ) : (readOnce read s).2.old = s.old := by
  simp only [readOnce]
  split
  · rw [setErr_old]
  · split
    · rw [setErr_old]
    · split <;> rfl

theorem readLoop_old (read : Reader σ) (left : Nat) : ∀ s : Scanner σ, (readLoop read left s).old = s.old := by
  induction left with
  | zero =>
    intro s
    have h := readOnce_old read s
    rw [readLoop]
    rcases hx : readOnce read s with ⟨b, s'⟩
    rw [hx] at h
    cases b
    · exact (setErr_old _ _).trans h
    · exact h
  | succ left ih =>
    intro s
    have h := readOnce_old read s
    rw [readLoop]
    rcases hx : readOnce read s with ⟨b, s'⟩
    rw [hx] at h
    cases b
    · exact (ih s').trans h
    · exact h

theorem readLoop_len {M C : Nat} (read : Reader σ) (left : Nat) : ∀ s : Scanner σ, Sane M C s → s.stop < s.buf.length →
    (readLoop read left s).buf.length = s.buf.length := by
  induction left with
  | zero =>
    intro s hs hr
    obtain ⟨_, h, -⟩ := readOnce_sane (read := read) hs hr
    rw [readLoop]
    rcases hx : readOnce read s with ⟨b, s'⟩
    rw [hx] at h
    cases b
    · simp only; rw [(setErr_fields _ _).2.1]; exact h
    · exact h
  | succ left ih =>
    intro s hs hr
    obtain ⟨h1, h, -, -, -, h6⟩ := readOnce_sane (read := read) hs hr
    rw [readLoop]
    rcases hx : readOnce read s with ⟨b, s'⟩
    rw [hx] at h1 h h6
    cases b
    · exact (ih s' h1 (h6 rfl)).trans h
    · exact h

theorem sum_concat (l : List Nat) (n : Nat) : (l ++ [n]).sum = l.sum + n := by simp

/-- When the buffer grows, it was full of undecided bytes. -/
theorem more_mem {read : Reader σ} {b0 M B C : Nat} {s s' : Scanner σ} {x : Option Bool} (hs : Sane M C s)
    (hx : s.more read M = .ok (x, s')) (hB : s.err = none → s.win.length ≤ B) (h : Mem b0 M B s) : Mem b0 M B s' := by
  unfold more at hx
  by_cases he : s.err = none
  · rw [if_neg (by rw [he]; simp), window_eq hs.bounds] at hx
    simp only [bind, Except.bind] at hx
    obtain ⟨h1, h2, h3, h4, h5, h6, h7⟩ := shift_spec hs.bounds
    have hold : (s.shift s.win).old = s.old := by unfold shift; split <;> rfl
    have hsh : Sane M C (s.shift s.win) := ⟨by rw [h7]; exact hs.notDone, h1, by rw [h3]; exact hs.size⟩
    have hm : Mem b0 M B (s.shift s.win) := h.congr h3 hold
    have hw := win_length h1
    rw [h2] at hw
    have hwB := hB he
    generalize hz : s.shift s.win = z at *
    have hg := grow_spec h1 h4 hsh.size
    rw [h2] at hg
    rcases hg with ⟨hg, hC⟩ | ⟨t, hg, g1, g2, g3, g4, g5, g6, g7⟩
    · rw [hg] at hx
      cases hx
      exact hm.congr (by rw [(setErr_fields _ _).2.1]) (setErr_old _ _)
    · rw [hg] at hx
      cases hx
      have ht : Sane M C t := ⟨by rw [g7]; exact hsh.notDone, g1, g4⟩
      have hmt : Mem b0 M B t := by
        unfold grow at hg
        by_cases hfull : z.stop = z.buf.length
        · rw [if_pos hfull] at hg
          by_cases hM : M ≤ z.buf.length
          · rw [if_pos hM] at hg; cases hg
          · rw [if_neg hM] at hg
            have h0 := h4 hfull
            have hlen : z.buf.length ≤ B := by omega
            have hn := (sizeOk_newSize hsh.size (by omega)).1
            have hl := overwrite_length (List.replicate (newSize M z.buf.length) (0 : UInt8)) 0 s.win
              (by rw [List.length_replicate]; omega)
            rw [List.length_replicate] at hl
            have hhalf := hm.half (by omega)
            cases hg
            refine ⟨?_, ?_, ?_, ?_⟩
            · show (overwrite _ 0 s.win).length ≤ _
              rw [hl]
              unfold newSize
              split <;> omega
            · intro o ho
              rcases List.mem_append.mp ho with ho | ho
              · exact hm.old o ho
              · rw [List.mem_singleton.mp ho]; exact hlen
            · show (List.map List.length (z.old ++ [z.buf])).sum ≤ _
              rw [List.map_append, List.map_singleton, sum_concat]
              omega
            · show (overwrite _ 0 s.win).length < M → (List.map List.length (z.old ++ [z.buf])).sum ≤ (overwrite _ 0 s.win).length
              rw [hl, List.map_append, List.map_singleton, sum_concat]
              unfold newSize startBufSize
              split <;> omega
        · rw [if_neg hfull] at hg
          cases hg
          exact hm
      exact hmt.congr (readLoop_len read _ t ht g3) (readLoop_old read _ t)
  · rw [if_pos he] at hx
    cases hx
    exact h.congr rfl rfl

/-- What a round does with the buffers and errors. -/
theorem round_mem {split : SplitFunc} (hsp : GoodSplit split) {read : Reader σ} {b0 M B C : Nat} {s s' : Scanner σ}
    {x : Option Bool} (hs : Sane M C s) (hx : s.round split read M = .ok (x, s'))
    (hB : s.err = none → (s.win = [] ∨ ∃ r, split s.win false = .ok r ∧ r.token = none) → s.win.length ≤ B) (h : Mem b0 M B s) :
    Mem b0 M B s' := by
  have hwl := win_length hs.bounds
  unfold round at hx
  by_cases hcond : s.start < s.stop ∨ s.err ≠ none
  · rw [if_pos hcond, window_eq hs.bounds] at hx
    obtain ⟨r, hr, hre, hra, hrt⟩ := hsp.total s.win (s.err != none)
    simp only [bind, Except.bind, hr, hre] at hx
    rw [if_neg (by omega)] at hx
    cases ht : r.token with
    | some tok =>
      have hadv : 0 < r.advance := by
        rcases Nat.eq_zero_or_pos r.advance with h0 | h0
        · rw [hrt.mpr h0] at ht; cases ht
        · exact h0
      rw [ht] at hx
      simp only at hx
      rw [if_pos (Or.inr hadv)] at hx
      cases hx
      exact h.congr rfl rfl
    | none =>
      have h0 := hrt.mp ht
      simp only [ht, h0, Nat.add_zero] at hx
      refine more_mem (s := { s with token := none }) (C := C) ⟨hs.notDone, hs.bounds, hs.size⟩ hx ?_ (h.congr rfl rfl)
      intro he
      refine hB he (Or.inr ⟨r, ?_, ht⟩)
      have e : (s.err != none) = false := by rw [show s.err = none from he]; rfl
      rw [e] at hr; exact hr
  · rw [if_neg hcond] at hx
    refine more_mem hs hx (fun he => hB he (Or.inl ?_)) h
    apply List.eq_nil_of_length_eq_zero
    have : ¬ s.start < s.stop := fun h => hcond (Or.inl h)
    omega

/-- After an error nothing is read, and a round without a token is the last. -/
theorem round_err {split : SplitFunc} (hsp : GoodSplit split) {read : Reader σ} {M C : Nat} {s s' : Scanner σ}
    {x : Option Bool} (hs : Sane M C s) (hx : s.round split read M = .ok (x, s')) :
    (s.err ≠ none → s'.err ≠ none ∧ s'.rd = s.rd) ∧ (x = some false → s'.err ≠ none) := by
  have hmore : ∀ {s s' : Scanner σ}, Sane M C s → s.more read M = .ok (x, s') →
      (s.err ≠ none → s'.err ≠ none ∧ s'.rd = s.rd) ∧ (x = some false → s'.err ≠ none) := by
    intro s s' hs hx
    unfold more at hx
    by_cases he : s.err = none
    · refine ⟨fun h => absurd he h, ?_⟩
      rintro rfl
      rw [if_neg (by rw [he]; simp), window_eq hs.bounds] at hx
      simp only [bind, Except.bind] at hx
      cases hg : (s.shift s.win).grow M s.win with
      | none => rw [hg] at hx; cases hx; exact (setErr_fields _ _).2.2.2.2
      | some t => rw [hg] at hx; cases hx
    · rw [if_pos he] at hx
      cases hx
      exact ⟨fun _ => ⟨he, rfl⟩, fun _ => he⟩
  have hwl := win_length hs.bounds
  unfold round at hx
  by_cases hcond : s.start < s.stop ∨ s.err ≠ none
  · rw [if_pos hcond, window_eq hs.bounds] at hx
    obtain ⟨r, hr, hre, hra, hrt⟩ := hsp.total s.win (s.err != none)
    simp only [bind, Except.bind, hr, hre] at hx
    rw [if_neg (by omega)] at hx
    cases ht : r.token with
    | some tok =>
      have hadv : 0 < r.advance := by
        rcases Nat.eq_zero_or_pos r.advance with h0 | h0
        · rw [hrt.mpr h0] at ht; cases ht
        · exact h0
      rw [ht] at hx
      simp only at hx
      rw [if_pos (Or.inr hadv)] at hx
      cases hx
      exact ⟨fun h => ⟨h, rfl⟩, fun h => by cases h⟩
    | none =>
      have h0 := hrt.mp ht
      simp only [ht, h0, Nat.add_zero] at hx
      exact hmore (s := { s with token := none }) ⟨hs.notDone, hs.bounds, hs.size⟩ hx
  · rw [if_neg hcond] at hx
    exact hmore hs hx

/-- An invariant of rounds: `P` describes the Scanner until there is an error, `Q` is a condition on states that holds earlier if
it holds later. -/
structure RoundInv (split : SplitFunc) (read : Reader σ) (M C B : Nat) (P Q : Scanner σ → Prop) : Prop where
  step : ∀ s s' x, P s → Sane M C s → s.err = none → s.round split read M = .ok (x, s') → s'.err = none → P s'
  back : ∀ s s' x, Sane M C s → s.round split read M = .ok (x, s') → Q s' → Q s
  bound : ∀ s, P s → Q s → s.err = none → (s.win = [] ∨ ∃ r, split s.win false = .ok r ∧ r.token = none) → s.win.length ≤ B

/-- The complete invariant. -/
structure MemInv (b0 M C B : Nat) (P Q : Scanner σ → Prop) (s : Scanner σ) : Prop where
  sane : Sane M C s
  inv : s.err = none → P s
  mem : Q s → Mem b0 M B s

theorem round_memInv {split : SplitFunc} (hsp : GoodSplit split) {read : Reader σ} {b0 M B C : Nat} {P Q : Scanner σ → Prop}
    (hI : RoundInv split read M C B P Q) {s s' : Scanner σ} {x : Option Bool} (h : MemInv b0 M C B P Q s)
    (hx : s.round split read M = .ok (x, s')) : MemInv b0 M C B P Q s' := by
  obtain ⟨x', s'', hx', hs', -⟩ := round_sane hsp (read := read) h.sane
  rw [hx] at hx'
  cases hx'
  obtain ⟨e1, -⟩ := round_err hsp h.sane hx
  refine ⟨hs', ?_, ?_⟩
  · intro he'
    have he : s.err = none := Decidable.byContradiction fun he => (e1 he).1 he'
    exact hI.step s s' x (h.inv he) h.sane he hx he'
  · intro hQ'
    have hQ := hI.back s s' x h.sane hx hQ'
    exact round_mem hsp h.sane hx (fun he hu => hI.bound s (h.inv he) hQ he hu) (h.mem hQ)

theorem loop_memInv {split : SplitFunc} (hsp : GoodSplit split) {read : Reader σ} {b0 M B C : Nat} {P Q : Scanner σ → Prop}
    (hI : RoundInv split read M C B P Q) (fuel : Nat) : ∀ {s s' : Scanner σ} {b : Bool}, MemInv b0 M C B P Q s →
    s.loop split read M fuel = .ok (b, s') → MemInv b0 M C B P Q s' := by
  induction fuel with
  | zero => intro s s' b _ h; cases h
  | succ fuel ih =>
    intro s s' b h hx
    rw [loop] at hx
    simp only [bind, Except.bind] at hx
    cases hr : s.round split read M with
    | error e => rw [hr] at hx; cases hx
    | ok y =>
      obtain ⟨x, t⟩ := y
      have ht := round_memInv hsp hI h hr
      rw [hr] at hx
      cases x with
      | some b' => cases hx; exact ht
      | none => exact ih ht hx

theorem Scan_memInv {split : SplitFunc} (hsp : GoodSplit split) {read : Reader σ} {b0 M B C : Nat} {P Q : Scanner σ → Prop}
    (hI : RoundInv split read M C B P Q) {s s' : Scanner σ} {b : Bool} (h : MemInv b0 M C B P Q s)
    (hx : s.Scan split read M = .ok (b, s')) : MemInv b0 M C B P Q s' := by
  unfold Scan at hx
  rw [h.sane.notDone] at hx
  exact loop_memInv hsp hI _ h hx

theorem scanTimes_memInv {split : SplitFunc} (hsp : GoodSplit split) {read : Reader σ} {b0 M B C : Nat} {P Q : Scanner σ → Prop}
    (hI : RoundInv split read M C B P Q) (n : Nat) : ∀ {s s' : Scanner σ}, MemInv b0 M C B P Q s →
    scanTimes split read M n s = .ok s' → MemInv b0 M C B P Q s' := by
  induction n with
  | zero => intro s s' h hx; cases hx; exact h
  | succ n ih =>
    intro s s' h hx
    rw [scanTimes] at hx
    simp only [bind, Except.bind] at hx
    cases hr : s.Scan split read M with
    | error e => rw [hr] at hx; cases hx
    | ok y =>
      obtain ⟨b, t⟩ := y
      rw [hr] at hx
      exact ih (Scan_memInv hsp hI h hr) hx

/-! ## Readers that deliver a given input -/

/-- The bytes that are still to be split have only short tokens. -/
def ShortAt (split : SplitFunc) (read : Reader σ) (E : IOErr) (M C L : Nat) (s : Scanner σ) : Prop :=
  ∃ rest toks, At read E M C s rest ∧ SplitsTo split rest toks ∧ ∀ t ∈ toks, t.length ≤ L

theorem undecided_le {w rest : List UInt8} {toks : List (List UInt8)} {L : Nat} (hD : ∃ D, w ++ D = rest)
    (hsp : SplitsTo ScanGraphemeClusters rest toks)
    (hL : ∀ t ∈ toks, t.length ≤ L) (hu : w = [] ∨ ∃ r, ScanGraphemeClusters w false = .ok r ∧ r.token = none) :
    w.length ≤ L + 3 := by
  rcases hu with hu | ⟨r, hr, ht⟩
  · rw [hu]; exact Nat.zero_le _
  · obtain ⟨D, hD⟩ := hD
    by_cases hw : w = []
    · rw [hw]; exact Nat.zero_le _
    · have hne : rest ≠ [] := by rw [← hD]; simp [hw]
      cases hsp with
      | nil => exact absurd rfl hne
      | cons _ q tok toks a1 a2 a3 a4 a5 =>
        have := overlong_token (C := w.length) (data := rest) ⟨by rw [← hD]; simp, r, by rw [← hD, List.take_left]; exact hr, ht⟩
          hne a2
        obtain ⟨h2, -, h3⟩ := Props.C02_token_is_consumed_prefix _ _ _ a2
        have := hL tok (by simp)
        rw [h3 tok a3, List.length_take] at this
        omega

theorem shortAt_inv (read : Reader σ) (E : IOErr) (M C L : Nat) :
    RoundInv ScanGraphemeClusters read M C (L + 3) (ShortAt ScanGraphemeClusters read E M C L) (fun _ => True) := by
  refine ⟨?_, fun _ _ _ _ _ _ => trivial, ?_⟩
  · rintro s s' x ⟨rest, toks, hat, hsp, hL⟩ _ he hx he'
    obtain ⟨y, hy, hd⟩ := round_spec goodSplit_grapheme read E hat
    rw [hx] at hy
    cases hy
    cases hd with
    | again _ a1 a2 a3 => exact ⟨rest, toks, a1, hsp, hL⟩
    | token _ r tok a1 a2 a3 a4 a5 a6 a7 a8 =>
      cases hsp with
      | nil => exact absurd rfl a1
      | cons _ q tok' toks' b1 b2 b3 b4 b5 =>
        rw [a2] at b2
        cases b2
        exact ⟨_, toks', a6, b5, fun t ht => hL t (List.mem_cons_of_mem _ ht)⟩
    | finish _ a1 a2 => rw [a2] at he'; cases he'
    | tooLong _ a1 a2 a3 => rw [a3] at he'; cases he'
  · rintro s ⟨rest, toks, hat, hsp, hL⟩ _ he hu
    rcases hat.alt with ⟨_, D, hD, _⟩ | ⟨he', _⟩
    · exact undecided_le ⟨D, hD⟩ hsp hL hu
    · rw [he] at he'; cases he'

/-! ## Readers that need not end -/

/-- The record of the reader only grows. -/
theorem round_log {split : SplitFunc} (hsp : GoodSplit split) {read : Reader σ} (hh : Honest read) {M C : Nat}
    {s s' : Scanner (σ × List UInt8)} {x : Option Bool} (hs : Sane M C s) (hx : s.round split (logged read) M = .ok (x, s')) :
    s.rd.2 <+: s'.rd.2 := by
  have hmore : ∀ {s s' : Scanner (σ × List UInt8)}, Sane M C s → s.more (logged read) M = .ok (x, s') → s.rd.2 <+: s'.rd.2 := by
    intro s s' hs hx
    unfold more at hx
    by_cases he : s.err = none
    · rw [if_neg (by rw [he]; simp), window_eq hs.bounds] at hx
      simp only [bind, Except.bind] at hx
      obtain ⟨h1, h2, h3, h4, h5, h6, h7⟩ := shift_spec hs.bounds
      have hg := grow_spec (M := M) (C := C) h1 h4 (by rw [h3]; exact hs.size)
      rw [h2] at hg
      rcases hg with ⟨hg, hC⟩ | ⟨t, hg, g1, g2, g3, g4, g5, g6, g7⟩
      · rw [hg] at hx
        cases hx
        have e : ((s.shift s.win).setErr .tooLong).rd = (s.shift s.win).rd := by unfold setErr; split <;> rfl
        rw [e, h6]
        exact List.prefix_rfl
      · rw [hg] at hx
        cases hx
        obtain ⟨new, -, n2⟩ := readLoop_logged hh maxConsecutiveEmptyReads g1 (by rw [g5, h5]; exact he)
        rw [n2, g6, h6]
        exact List.prefix_append _ _
    · rw [if_pos he] at hx
      cases hx
      exact List.prefix_rfl
  have hwl := win_length hs.bounds
  unfold round at hx
  by_cases hcond : s.start < s.stop ∨ s.err ≠ none
  · rw [if_pos hcond, window_eq hs.bounds] at hx
    obtain ⟨r, hr, hre, hra, hrt⟩ := hsp.total s.win (s.err != none)
    simp only [bind, Except.bind, hr, hre] at hx
    rw [if_neg (by omega)] at hx
    cases ht : r.token with
    | some tok =>
      have hadv : 0 < r.advance := by
        rcases Nat.eq_zero_or_pos r.advance with h0 | h0
        · rw [hrt.mpr h0] at ht; cases ht
        · exact h0
      rw [ht] at hx
      simp only at hx
      rw [if_pos (Or.inr hadv)] at hx
      cases hx
      exact List.prefix_rfl
    | none =>
      have h0 := hrt.mp ht
      simp only [ht, h0, Nat.add_zero] at hx
      exact hmore (s := { s with token := none }) ⟨hs.notDone, hs.bounds, hs.size⟩ hx
  · rw [if_neg hcond] at hx
    exact hmore hs hx

theorem emitted_inv {read : Reader σ} (hh : Honest read) (M C : Nat) (F : List UInt8) (all : List (List UInt8))
    (hall : SplitsTo ScanGraphemeClusters F all) (L : Nat) (hL : ∀ t ∈ all, t.length ≤ L) :
    RoundInv ScanGraphemeClusters (logged read) M C (L + 3)
      (fun s => ∃ toks consumed, Emitted ScanGraphemeClusters M C s toks consumed) (fun s => s.rd.2 <+: F) := by
  refine ⟨?_, fun s s' x hs hx h => (round_log goodSplit_grapheme hh hs hx).trans h, ?_⟩
  · rintro s s' x ⟨toks, consumed, h⟩ hs he hx he'
    rcases round_emitted goodSplit_grapheme hh h hx with h1 | ⟨h1, h2⟩ | ⟨r, tok, h1, h2, h3, h4, h5⟩
    · exact absurd he' ((round_err goodSplit_grapheme hs hx).2 h1)
    · exact ⟨_, _, h2⟩
    · exact ⟨_, _, h5⟩
  · rintro s ⟨toks, consumed, h⟩ ⟨more, hF⟩ he hu
    obtain ⟨rest, hr⟩ : ∃ rest, SplitsTo ScanGraphemeClusters (s.win ++ more) rest := by
      obtain ⟨toks, ht, -⟩ := Props.C04_tokens_partition_input (s.win ++ more)
      exact ⟨toks, splitsTo_iff_tokens.mpr ht⟩
    have h1 := h.fin more (Or.inl he) rest hr
    rw [hF] at h1
    have h2 := splitsTo_iff_tokens.mp h1
    rw [splitsTo_iff_tokens.mp hall] at h2
    cases h2
    exact undecided_le ⟨more, rfl⟩ hr (fun t ht => hL t (List.mem_append_right _ ht)) hu

/-! ## The buffer never shrinks, and holds every token -/

theorem more_grows {read : Reader σ} {M C : Nat} {s s' : Scanner σ} {x : Option Bool} (hs : Sane M C s)
    (hx : s.more read M = .ok (x, s')) : s.buf.length ≤ s'.buf.length ∧ x ≠ some true := by
  unfold more at hx
  by_cases he : s.err = none
  · rw [if_neg (by rw [he]; simp), window_eq hs.bounds] at hx
    simp only [bind, Except.bind] at hx
    obtain ⟨h1, h2, h3, h4, h5, h6, h7⟩ := shift_spec hs.bounds
    have hsh : Sane M C (s.shift s.win) := ⟨by rw [h7]; exact hs.notDone, h1, by rw [h3]; exact hs.size⟩
    have hw := win_length h1
    rw [h2] at hw
    generalize hz : s.shift s.win = z at *
    have hg := grow_spec h1 h4 hsh.size
    rw [h2] at hg
    rcases hg with ⟨hg, hC⟩ | ⟨t, hg, g1, g2, g3, g4, g5, g6, g7⟩
    · rw [hg] at hx
      cases hx
      rw [(setErr_fields _ _).2.1]
      exact ⟨by omega, by simp⟩
    · rw [hg] at hx
      cases hx
      have ht : Sane M C t := ⟨by rw [g7]; exact hsh.notDone, g1, g4⟩
      rw [readLoop_len read _ t ht g3]
      refine ⟨?_, by simp⟩
      unfold grow at hg
      by_cases hfull : z.stop = z.buf.length
      · rw [if_pos hfull] at hg
        by_cases hM : M ≤ z.buf.length
        · rw [if_pos hM] at hg; cases hg
        · rw [if_neg hM] at hg
          have h0 := h4 hfull
          have hn := (sizeOk_newSize hsh.size (by omega)).1
          have hl := overwrite_length (List.replicate (newSize M z.buf.length) (0 : UInt8)) 0 s.win
            (by rw [List.length_replicate]; omega)
          rw [List.length_replicate] at hl
          cases hg
          show s.buf.length ≤ (overwrite _ 0 s.win).length
          omega
      · rw [if_neg hfull] at hg
        cases hg
        omega
  · rw [if_pos he] at hx
    cases hx
    exact ⟨Nat.le_refl _, by simp⟩

theorem round_grows {read : Reader σ} {M C : Nat} {s s' : Scanner σ} {x : Option Bool} (hs : Sane M C s)
    (hx : s.round ScanGraphemeClusters read M = .ok (x, s')) :
    s.buf.length ≤ s'.buf.length ∧ (x = some true → ∃ tok, s'.token = some tok ∧ tok.length ≤ s'.buf.length) := by
  have hwl := win_length hs.bounds
  unfold round at hx
  by_cases hcond : s.start < s.stop ∨ s.err ≠ none
  · rw [if_pos hcond, window_eq hs.bounds] at hx
    obtain ⟨r, hr, hre, hra, hrt⟩ := goodSplit_grapheme.total s.win (s.err != none)
    simp only [bind, Except.bind, hr, hre] at hx
    rw [if_neg (by omega)] at hx
    cases ht : r.token with
    | some tok =>
      have hadv : 0 < r.advance := by
        rcases Nat.eq_zero_or_pos r.advance with h0 | h0
        · rw [hrt.mpr h0] at ht; cases ht
        · exact h0
      rw [ht] at hx
      simp only at hx
      rw [if_pos (Or.inr hadv)] at hx
      cases hx
      refine ⟨Nat.le_refl _, fun _ => ⟨tok, rfl, ?_⟩⟩
      have h3 := (Props.C02_token_is_consumed_prefix _ _ _ hr).2.2 tok ht
      rw [h3, List.length_take]
      have := hs.bounds.2
      show min r.advance s.win.length ≤ s.buf.length
      omega
    | none =>
      have h0 := hrt.mp ht
      simp only [ht, h0, Nat.add_zero] at hx
      obtain ⟨m1, m2⟩ := more_grows (s := { s with token := none }) (C := C) ⟨hs.notDone, hs.bounds, hs.size⟩ hx
      exact ⟨m1, fun h => absurd h m2⟩
  · rw [if_neg hcond] at hx
    obtain ⟨m1, m2⟩ := more_grows hs hx
    exact ⟨m1, fun h => absurd h m2⟩

theorem loop_grows {read : Reader σ} {M C : Nat} (fuel : Nat) : ∀ {s s' : Scanner σ} {b : Bool}, Sane M C s →
    s.loop ScanGraphemeClusters read M fuel = .ok (b, s') →
    Sane M C s' ∧ s.buf.length ≤ s'.buf.length ∧ (b = true → ∃ tok, s'.token = some tok ∧ tok.length ≤ s'.buf.length) := by
  induction fuel with
  | zero => intro s s' b _ h; cases h
  | succ fuel ih =>
    intro s s' b hs hx
    rw [loop] at hx
    simp only [bind, Except.bind] at hx
    obtain ⟨x, t, hr, ht, -⟩ := round_sane goodSplit_grapheme (read := read) hs
    rw [hr] at hx
    obtain ⟨g1, g2⟩ := round_grows hs hr
    cases x with
    | some b' => cases hx; exact ⟨ht, g1, fun h => g2 (by rw [h])⟩
    | none =>
      obtain ⟨i1, i2, i3⟩ := ih ht hx
      exact ⟨i1, Nat.le_trans g1 i2, i3⟩

theorem collectUpTo_grows {read : Reader σ} {M C : Nat} (n : Nat) : ∀ {s s' : Scanner σ} {toks : List (List UInt8)}, Sane M C s →
    collectUpTo ScanGraphemeClusters read M n s = .ok (toks, s') →
    s.buf.length ≤ s'.buf.length ∧ ∀ t ∈ toks, t.length ≤ s'.buf.length := by
  induction n with
  | zero => intro s s' toks _ h; cases h; exact ⟨Nat.le_refl _, fun t ht => by cases ht⟩
  | succ n ih =>
    intro s s' toks hs hx
    rw [collectUpTo] at hx
    simp only [bind, Except.bind] at hx
    obtain ⟨b, t, hr, ht⟩ := Scan_sane goodSplit_grapheme (read := read) hs
    have hg := hr
    unfold Scan at hg
    rw [hs.notDone] at hg
    obtain ⟨-, g1, g2⟩ := loop_grows _ hs hg
    rw [hr] at hx
    cases b with
    | false => cases hx; exact ⟨g1, fun t ht => by cases ht⟩
    | true =>
      simp only at hx
      cases hy : collectUpTo ScanGraphemeClusters read M n t with
      | error e => rw [hy] at hx; cases hx
      | ok z =>
        obtain ⟨toks', s''⟩ := z
        rw [hy] at hx
        cases hx
        obtain ⟨i1, i2⟩ := ih ht hy
        obtain ⟨tok, k1, k2⟩ := g2 rfl
        refine ⟨Nat.le_trans g1 i1, fun u hu => ?_⟩
        rcases List.mem_cons.mp hu with hu | hu
        · rw [hu, Bytes, k1, Option.getD]
          exact Nat.le_trans k2 i1
        · exact i2 u hu

end Scanner
end Textseg
