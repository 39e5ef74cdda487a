import Verif.Proofs.TokenLengths
/-!
# Keeping the slices that the Scanner hands out, on short inputs
-/

namespace Textseg
open Spec Scanner

/-- The bytes of the buffer before an offset, after an overwrite at that offset. -/
theorem overwrite_take (buf : List UInt8) (off : Nat) (bs : List UInt8) (h : off ≤ buf.length) :
    (overwrite buf off bs).take off = buf.take off := by
  rw [overwrite, List.append_assoc, List.take_append_of_le_length (by rw [List.length_take]; omega)]
  rw [List.take_take, Nat.min_self]

theorem overwrite_take_more (buf : List UInt8) (off : Nat) (bs : List UInt8) (h : off + bs.length ≤ buf.length) :
    (overwrite buf off bs).take (off + bs.length) = buf.take off ++ bs := by
  rw [overwrite, List.take_append_of_le_length (by rw [List.length_append, List.length_take]; omega)]
  apply List.take_of_length_le
  rw [List.length_append, List.length_take]; omega

section
variable {σ : Type} (read : Reader σ) (E : IOErr)

/-- A Scanner (without a buffer of its own at the beginning) that reads the input `D`, of at most 2049 bytes: before the
first read, while the buffer holds the input from its beginning, and after the whole input has been split. -/
inductive Kept (D : List UInt8) (s : Scanner σ) : Prop
  | fresh : s.buf = [] → s.old = [] → s.start = 0 → s.stop = 0 → s.err = none → Delivers read E s.rd D 0 → Kept D s
  | run (D' : List UInt8) : s.buf.length = 4096 → s.old = [[]] → s.start ≤ s.stop → s.stop ≤ 4096 → s.buf.take s.stop ++ D' = D →
      (s.err = none → Delivers read E s.rd D' 0) → (s.err ≠ none → D' = []) → Kept D s
  | reset : s.buf.length = 4096 → s.old = [[]] → s.buf.take D.length = D → s.start = 0 → s.stop = 0 →
      (s.err = none → Delivers read E s.rd [] 0) → Kept D s

variable {read} {E}

theorem Kept.bounds {D : List UInt8} {s : Scanner σ} (h : Kept read E D s) : s.Bounds := by
  cases h with
  | fresh h1 h2 h3 h4 _ _ => exact ⟨by omega, by omega⟩
  | run D' h1 h2 h3 h4 _ _ => exact ⟨h3, by omega⟩
  | reset h1 h2 h3 h4 h5 _ => exact ⟨by omega, by omega⟩

/-- A read when there is nothing left writes nothing. -/
theorem readLoop_nothing (hE : E ≠ .badReadCount) (left : Nat) : ∀ (s : Scanner σ) (k : Nat), s.Bounds → s.stop < s.buf.length →
    s.err = none → Delivers read E s.rd [] k → k + left = 100 →
    (readLoop read left s).buf = s.buf ∧ (readLoop read left s).old = s.old ∧ (readLoop read left s).start = s.start ∧
      (readLoop read left s).stop = s.stop ∧ (readLoop read left s).err ≠ none := by
  induction left with
  | zero =>
    intro s k hb hroom he hd hk
    cases hd with
    | mk _ _ _ rest hstep hnext =>
    have hroom' : 0 < s.buf.length - s.stop := by omega
    have h1 := hstep _ hroom'
    generalize hr : read s.rd (s.buf.length - s.stop) = r at h1
    have hrb : ∀ {D D' : List UInt8}, ReadStep E r (s.buf.length - s.stop) k D D' → D = [] →
        r.n = r.bytes.length ∧ r.bytes = [] ∧ (r.err = none → k = 100) := by
      intro D D' h hD
      cases h with
      | badCount _ h => exact absurd h hE
      | last a b c => exact ⟨a, hD, fun hn => by rw [c] at hn; cases hn⟩
      | stuck a b c d e => exact ⟨by rw [a, b]; rfl, b, fun _ => d⟩
      | bytes D' a b c d =>
        have := (List.append_eq_nil_iff.mp hD).1
        exact ⟨a, this, fun _ => by have := d this; omega⟩
    obtain ⟨a, b, _⟩ := hrb h1 rfl
    rw [readLoop_count hr a (by rw [b]; exact Nat.zero_le _), b]
    cases hre : r.err with
    | some e =>
      simp only
      rw [setErr_of_none (by exact he), afterRead_nil]
      exact ⟨rfl, rfl, rfl, rfl, by simp⟩
    | none =>
      simp only [if_pos]
      rw [setErr_of_none (by exact he), afterRead_nil]
      exact ⟨rfl, rfl, rfl, rfl, by simp⟩
  | succ left ih =>
    intro s k hb hroom he hd hk
    cases hd with
    | mk _ _ _ rest hstep hnext =>
    have hroom' : 0 < s.buf.length - s.stop := by omega
    have h1 := hstep _ hroom'
    have h2 := hnext _ hroom'
    generalize hr : read s.rd (s.buf.length - s.stop) = r at h1 h2
    generalize rest (s.buf.length - s.stop) = R at h1 h2
    have hrb : ∀ {D D' : List UInt8}, ReadStep E r (s.buf.length - s.stop) k D D' → D = [] →
        r.n = r.bytes.length ∧ r.bytes = [] ∧ (r.err = none → k < 100 → D' = []) := by
      intro D D' h hD
      cases h with
      | badCount _ h => exact absurd h hE
      | last a b c => exact ⟨a, hD, fun hn => by rw [c] at hn; cases hn⟩
      | stuck a b c d e => exact ⟨by rw [a, b]; rfl, b, fun _ _ => rfl⟩
      | bytes D' a b c d => exact ⟨a, (List.append_eq_nil_iff.mp hD).1, fun _ _ => (List.append_eq_nil_iff.mp hD).2⟩
    obtain ⟨a, b, c⟩ := hrb h1 rfl
    rw [readLoop_count hr a (by rw [b]; exact Nat.zero_le _), b]
    cases hre : r.err with
    | some e =>
      simp only
      rw [setErr_of_none (by exact he), afterRead_nil]
      exact ⟨rfl, rfl, rfl, rfl, by simp⟩
    | none =>
      simp only [if_pos]
      have hd' := h2 ⟨by rw [a]; omega, by rw [a, b]; simp, hre, fun _ => by omega⟩
      rw [b, if_pos rfl, c hre (by omega)] at hd'
      rw [afterRead_nil]
      have hb' : ({ s with rd := r.next } : Scanner σ).Bounds := hb
      exact ih { s with rd := r.next } (k + 1) hb' hroom he hd' (by omega)

/-- What is in the buffer before the place where the read begins stays. -/
theorem readLoop_take (left : Nat) : ∀ (s : Scanner σ), s.stop ≤ s.buf.length →
    (readLoop read left s).buf.take s.stop = s.buf.take s.stop ∧ (readLoop read left s).old = s.old := by
  have once : ∀ s : Scanner σ, s.stop ≤ s.buf.length → (readOnce read s).2.buf.take s.stop = s.buf.take s.stop := by
    intro s h
    simp only [readOnce]
    split
    · rw [(setErr_fields _ _).2.1]
      exact overwrite_take _ _ _ h
    · split
      · rw [(setErr_fields _ _).2.1]
        exact overwrite_take _ _ _ h
      · split <;> exact overwrite_take _ _ _ h
  have mono : ∀ s : Scanner σ, s.stop ≤ s.buf.length → (readOnce read s).1 = false →
      (readOnce read s).2.stop = s.stop ∧ (readOnce read s).2.stop ≤ (readOnce read s).2.buf.length := by
    intro s h
    simp only [readOnce]
    split
    · intro h; cases h
    · split
      · intro h; cases h
      · split
        · intro h; cases h
        · intro _
          rename_i h1 _ _ h2
          refine ⟨by show s.stop + _ = s.stop; omega, ?_⟩
          show s.stop + _ ≤ (overwrite _ _ _).length
          rw [overwrite_length _ _ _ (by rw [List.length_take]; omega)]
          omega
  induction left with
  | zero =>
    intro s h
    have h1 := once s h
    have h2 := readOnce_old read s
    rw [readLoop]
    rcases hx : readOnce read s with ⟨b, s'⟩
    rw [hx] at h1 h2
    cases b with
    | true => exact ⟨h1, h2⟩
    | false =>
      simp only
      rw [setErr_old, (setErr_fields _ _).2.1]
      exact ⟨h1, h2⟩
  | succ left ih =>
    intro s h
    have h1 := once s h
    have h2 := readOnce_old read s
    have h3 := mono s h
    rw [readLoop]
    rcases hx : readOnce read s with ⟨b, s'⟩
    rw [hx] at h1 h2 h3
    cases b with
    | true => exact ⟨h1, h2⟩
    | false =>
      obtain ⟨h4, h5⟩ := h3 rfl
      obtain ⟨g1, g2⟩ := ih s' h5
      simp only at h4 h1 h2 g1 g2 ⊢
      rw [h4] at g1
      exact ⟨g1.trans h1, g2.trans h2⟩

/-- A read while the buffer holds the input from its beginning. -/
theorem readLoop_run {D D' : List UInt8} {s : Scanner σ} (h1 : s.buf.length = 4096) (h2 : s.old = [[]])
    (h3 : s.start ≤ s.stop) (h4 : s.stop < 4096) (h5 : s.buf.take s.stop ++ D' = D) (he : s.err = none)
    (hd : Delivers read E s.rd D' 0) :
    Kept read E D (readLoop read 100 s) ∧ (readLoop read 100 s).start = s.start := by
  have hb : s.Bounds := ⟨h3, by omega⟩
  obtain ⟨D'', r⟩ := readLoop_spec read E 100 s D' 0 hb (by omega) he hd rfl
  obtain ⟨k1, k2⟩ := readLoop_take (read := read) 100 s hb.2
  have rb := r.bounds
  have hlen : (readLoop read 100 s).buf.length = 4096 := by rw [r.len, h1]
  have hdata : (readLoop read 100 s).buf.take (readLoop read 100 s).stop ++ D'' = D := by
    have e1 : ∀ t : Scanner σ, t.Bounds → t.buf.take t.stop = t.buf.take t.start ++ t.win := by
      intro t ht
      have := List.take_append_drop t.start (t.buf.take t.stop)
      rw [List.take_take, Nat.min_eq_left ht.1, List.drop_take] at this
      exact this.symm
    rw [e1 _ rb, List.append_assoc, r.data, r.start]
    rw [← h5, e1 _ hb, List.append_assoc]
    congr 1
    have := congrArg (List.take s.start) k1
    rw [List.take_take, List.take_take, Nat.min_eq_left h3] at this
    exact this
  refine ⟨.run D'' hlen (k2.trans h2) rb.1 (by have := rb.2; omega) hdata ?_ ?_, r.start⟩
  · intro he'
    rcases r.alt with ⟨_, _, a, _⟩ | ⟨a, _⟩
    · exact a
    · rw [he'] at a; cases a
  · intro he'
    rcases r.alt with ⟨a, _⟩ | ⟨_, a, _⟩
    · exact absurd a he'
    · exact a

/-- The state after the last call of `Scan`. -/
def Final (D : List UInt8) (s : Scanner σ) : Prop := s.old = [[]] ∧ s.buf.length = 4096 ∧ s.buf.take D.length = D

theorem more_kept (hE : E ≠ .badReadCount) {D : List UInt8} (hn : D.length ≤ 2049) {M : Nat} (hM : 4096 ≤ M)
    {s s' : Scanner σ} {x : Option Bool} (h : Kept read E D s) (hm : s.more read M = .ok (x, s')) :
    x ≠ some true ∧ (x = none → Kept read E D s') ∧ (x = some false → Final D s') := by
  unfold more at hm
  by_cases he : s.err = none
  · rw [if_neg (by rw [he]; simp), window_eq h.bounds] at hm
    simp only [bind, Except.bind, maxConsecutiveEmptyReads] at hm
    cases h with
    | fresh h1 h2 h3 h4 _ hd =>
      have e : s.shift s.win = s := by unfold shift; rw [if_neg (by omega)]
      have hw : s.win = [] := by rw [win, h1, List.drop_nil, List.take_nil]
      have hns : newSize M ([] : List UInt8).length = 4096 := by
        unfold newSize startBufSize
        simp only [List.length_nil, Nat.zero_mul, if_true]
        omega
      have g : s.grow M s.win =
          some { s with old := [[]], buf := List.replicate 4096 0, stop := s.stop - s.start, start := 0 } := by
        unfold grow
        rw [if_pos (by rw [h1, h4]; rfl), if_neg (by rw [h1]; simp only [List.length_nil]; omega), hw, overwrite_nil, h1, h2,
          hns]
        rfl
      rw [e, g] at hm
      cases hm
      refine ⟨fun h => (by cases h), fun _ => ?_, fun h => (by cases h)⟩
      exact (readLoop_run
        (s := { s with old := [[]], buf := List.replicate 4096 0, stop := s.stop - s.start, start := 0 }) (D' := D)
        List.length_replicate rfl (Nat.zero_le _) (by show s.stop - s.start < 4096; omega)
        (by show (List.replicate 4096 (0 : UInt8)).take (s.stop - s.start) ++ D = D
            rw [show s.stop - s.start = 0 from by omega, List.take_zero, List.nil_append]) he hd).1
    | run D' h1 h2 h3 h4 h5 hd _ =>
      have hl := congrArg List.length h5
      rw [List.length_append, List.length_take, h1, Nat.min_eq_left h4] at hl
      by_cases hsh : 0 < s.start ∧ (s.stop = s.buf.length ∨ s.buf.length / 2 < s.start)
      · have hst : s.start = s.stop ∧ D'.length = 0 ∧ s.stop = D.length := by rw [h1] at hsh; omega
        have hD' : D' = [] := List.eq_nil_of_length_eq_zero hst.2.1
        have hw : s.win = [] := by
          apply List.eq_nil_of_length_eq_zero
          rw [win_length ⟨h3, by omega⟩]; omega
        have e : s.shift s.win = { s with stop := 0, start := 0 } := by
          unfold shift
          rw [if_pos hsh, hw, overwrite_nil, show s.stop - s.start = 0 from by omega]
        have g : ({ s with stop := 0, start := 0 } : Scanner σ).grow M s.win = some { s with stop := 0, start := 0 } := by
          unfold grow
          rw [if_neg (by show ¬ 0 = s.buf.length; omega)]
        rw [e, g] at hm
        cases hm
        have hd' : Delivers read E s.rd [] 0 := by rw [← hD']; exact hd he
        obtain ⟨r1, r2, r3, r4, r5⟩ := readLoop_nothing hE 100 ({ s with stop := 0, start := 0 } : Scanner σ) 0
          ⟨Nat.le_refl _, Nat.zero_le _⟩ (by show 0 < s.buf.length; omega) he hd' rfl
        refine ⟨by simp, fun _ => ?_, by simp⟩
        refine .reset (by rw [r1]; exact h1) (by rw [r2]; exact h2) ?_ r3 r4 (fun h => absurd h r5)
        rw [r1]
        show s.buf.take D.length = D
        rw [hD', List.append_nil] at h5
        rw [← hst.2.2]; exact h5
      · have e : s.shift s.win = s := by unfold shift; rw [if_neg hsh]
        have g : s.grow M s.win = some s := by
          unfold grow
          rw [if_neg (by rw [h1]; omega)]
        rw [e, g] at hm
        cases hm
        refine ⟨by simp, fun _ => ?_, by simp⟩
        exact (readLoop_run h1 h2 h3 (by omega) h5 he (hd he)).1
    | reset h1 h2 h3 h4 h5 hd =>
      have e : s.shift s.win = s := by unfold shift; rw [if_neg (by omega)]
      have g : s.grow M s.win = some s := by
        unfold grow
        rw [if_neg (by rw [h1]; omega)]
      rw [e, g] at hm
      cases hm
      obtain ⟨r1, r2, r3, r4, r5⟩ := readLoop_nothing hE 100 s 0 ⟨by omega, by omega⟩ (by omega) he (hd he) rfl
      exact ⟨by simp, fun _ => .reset (by rw [r1]; exact h1) (by rw [r2]; exact h2) (by rw [r1]; exact h3)
        (by rw [r3]; exact h4) (by rw [r4]; exact h5) (fun h => absurd h r5), by simp⟩
  · rw [if_pos he] at hm
    cases hm
    refine ⟨by simp, by simp, fun _ => ?_⟩
    cases h with
    | fresh _ _ _ _ h _ => exact absurd h he
    | run D' h1 h2 h3 h4 h5 _ h6 =>
      rw [h6 he, List.append_nil] at h5
      have hl := congrArg List.length h5
      rw [List.length_take, h1, Nat.min_eq_left h4] at hl
      refine ⟨h2, h1, ?_⟩
      show s.buf.take D.length = D
      rw [← hl]; exact h5
    | reset h1 h2 h3 _ _ _ => exact ⟨h2, h1, h3⟩

/-- The token and where it is in the input. -/
def TokenAt (D : List UInt8) (s : Scanner σ) : Prop := s.old = [[]] ∧ s.start ≤ D.length ∧
  ∃ tok, s.token = some tok ∧ tok.length ≤ s.start ∧ tok = (D.take s.start).drop (s.start - tok.length)

theorem round_kept {split : SplitFunc} (hsp : GoodSplit split)
    (htake : ∀ d b r tok, split d b = .ok r → r.token = some tok → tok = d.take r.advance)
    (hE : E ≠ .badReadCount) {D : List UInt8} (hn : D.length ≤ 2049) {M : Nat} (hM : 4096 ≤ M)
    {s s' : Scanner σ} {x : Option Bool} (h : Kept read E D s) (hm : s.round split read M = .ok (x, s')) :
    (x = none → Kept read E D s') ∧ (x = some true → Kept read E D s' ∧ TokenAt D s') ∧ (x = some false → Final D s') := by
  have keep : ∀ {s : Scanner σ} (tok : Option (List UInt8)) (n : Nat), Kept read E D s →
      Kept read E D ({ s with token := tok, empties := n } : Scanner σ) := by
    intro s tok n h
    cases h with
    | fresh a b c d e f => exact .fresh a b c d e f
    | run D' a b c d e f g => exact .run D' a b c d e f g
    | reset a b c d e f => exact .reset a b c d e f
  unfold round at hm
  split at hm
  · rw [window_eq h.bounds] at hm
    obtain ⟨r, hr, hre, hra, hrt⟩ := hsp.total s.win (s.err != none)
    have hwl := win_length h.bounds
    simp only [bind, Except.bind, hr, hre] at hm
    rw [if_neg (by omega)] at hm
    cases ht : r.token with
    | some tok =>
      have hadv : 0 < r.advance := by
        rcases Nat.eq_zero_or_pos r.advance with h0 | h0
        · rw [hrt.mpr h0] at ht; cases ht
        · exact h0
      simp only [ht] at hm
      rw [if_pos (Or.inr hadv)] at hm
      cases hm
      refine ⟨by simp, fun _ => ?_, by simp⟩
      cases h with
      | fresh _ _ a b _ _ => omega
      | reset _ _ _ a b _ => omega
      | run D' a b c d e f g =>
        have hl := congrArg List.length e
        rw [List.length_append, List.length_take, a, Nat.min_eq_left d] at hl
        refine ⟨.run D' a b (by show s.start + r.advance ≤ s.stop; omega) d e f g, b,
          by show s.start + r.advance ≤ D.length; omega, tok, rfl, ?_⟩
        have htok := htake _ _ _ _ hr ht
        have htl : tok.length = r.advance := by rw [htok, List.length_take]; omega
        refine ⟨by show tok.length ≤ s.start + r.advance; omega, ?_⟩
        show tok = (D.take (s.start + r.advance)).drop (s.start + r.advance - tok.length)
        rw [htl, Nat.add_sub_cancel, List.drop_take, Nat.add_sub_cancel_left]
        rw [← e, List.drop_append_of_le_length (by rw [List.length_take]; omega),
          List.take_append_of_le_length (by rw [List.length_drop, List.length_take]; omega), List.drop_take]
        exact htok
    | none =>
      have h0 := hrt.mp ht
      simp only [ht, h0, Nat.add_zero] at hm
      obtain ⟨a, b, c⟩ := more_kept hE hn hM (keep none s.empties h) hm
      exact ⟨b, fun hx => absurd hx a, c⟩
  · obtain ⟨a, b, c⟩ := more_kept hE hn hM h hm
    exact ⟨b, fun hx => absurd hx a, c⟩

theorem loop_kept {split : SplitFunc} (hsp : GoodSplit split)
    (htake : ∀ d b r tok, split d b = .ok r → r.token = some tok → tok = d.take r.advance)
    (hE : E ≠ .badReadCount) {D : List UInt8} (hn : D.length ≤ 2049) {M : Nat} (hM : 4096 ≤ M) (fuel : Nat) :
    ∀ {s s' : Scanner σ} {b : Bool}, Kept read E D s → s.loop split read M fuel = .ok (b, s') →
    (b = true → Kept read E D s' ∧ TokenAt D s') ∧ (b = false → Final D s') := by
  induction fuel with
  | zero => intro s s' b _ h; cases h
  | succ fuel ih =>
    intro s s' b h hx
    unfold loop at hx
    simp only [bind, Except.bind] at hx
    cases h1 : s.round split read M with
    | error e => rw [h1] at hx; cases hx
    | ok y =>
      obtain ⟨x, s1⟩ := y
      rw [h1] at hx
      obtain ⟨g1, g2, g3⟩ := round_kept hsp htake hE hn hM h h1
      cases x with
      | some b' =>
        cases hx
        exact ⟨fun hb => g2 (by rw [hb]), fun hb => g3 (by rw [hb])⟩
      | none => exact ih (g1 rfl) hx

theorem read_final {D : List UInt8} {s s' : Scanner σ} (h : TokenAt D s) (hf : Final D s') :
    ∃ tok, s.token = some tok ∧ s.bytesRef.read s'.heap = .ok tok := by
  obtain ⟨h1, h2, tok, h3, h4, h5⟩ := h
  obtain ⟨f1, f2, f3⟩ := hf
  refine ⟨tok, h3, ?_⟩
  have hl := congrArg List.length f3
  rw [List.length_take] at hl
  unfold SliceRef.read bytesRef heap
  rw [h1, f1, h3]
  show (if s.start - tok.length ≤ s.start ∧ s.start ≤ s'.buf.length then
    Except.ok ((s'.buf.take s.start).drop (s.start - tok.length)) else _) = _
  rw [if_pos (by omega)]
  congr 1
  rw [h5]
  have e : s'.buf.take s.start = D.take s.start := by
    rw [← f3, List.take_take, Nat.min_eq_left h2]
  rw [e]
  congr 1
  rw [← h5]

theorem collectRefs_kept {split : SplitFunc} (hsp : GoodSplit split)
    (htake : ∀ d b r tok, split d b = .ok r → r.token = some tok → tok = d.take r.advance)
    (hE : E ≠ .badReadCount) {D : List UInt8} (hn : D.length ≤ 2049) {M : Nat} (hM : 4096 ≤ M) (n : Nat) :
    ∀ {s : Scanner σ} {toks : List (List UInt8)} {e : Option IOErr}, Kept read E D s → s.done = false →
    Sane M M s →
    s.collect split read M n = .ok (toks, e) →
    ∃ refs s', collectRefs split read M n s = .ok (refs, s') ∧ s'.Err = e ∧ Final D s' ∧
      refs.mapM (SliceRef.read s'.heap) = .ok toks := by
  induction n with
  | zero => intro s toks e _ _ _ h; cases h
  | succ n ih =>
    intro s toks e h hdone hsane hc
    obtain ⟨b, s1, h1, h2⟩ := Scan_sane hsp (read := read) hsane
    have hloop := h1
    unfold Scan at hloop
    rw [if_neg (by rw [hdone]; simp)] at hloop
    obtain ⟨g1, g2⟩ := loop_kept hsp htake hE hn hM _ h hloop
    unfold collect at hc
    simp only [bind, Except.bind, h1] at hc
    cases b with
    | false =>
      cases hc
      refine ⟨[], s1, ?_, rfl, g2 rfl, rfl⟩
      rw [collectRefs]
      simp only [bind, Except.bind, h1]
    | true =>
      simp only at hc
      cases hy : s1.collect split read M n with
      | error e => simp only [hy] at hc; cases hc
      | ok y =>
        obtain ⟨toks1, e1⟩ := y
        simp only [hy] at hc
        cases hc
        obtain ⟨a1, a2⟩ := g1 rfl
        obtain ⟨refs, s', k1, k2, k3, k4⟩ := ih a1 h2.notDone h2 hy
        obtain ⟨tok, t1, t2⟩ := read_final a2 k3
        refine ⟨s1.bytesRef :: refs, s', ?_, k2, k3, ?_⟩
        · rw [collectRefs]
          simp only [bind, Except.bind, h1, k1]
        · rw [Bytes, t1]
          exact mapM_cons _ _ _ t2 k4

/-- Slices kept until the end. -/
theorem retained {split : SplitFunc} (hsp : GoodSplit split)
    (htake : ∀ d b r tok, split d b = .ok r → r.token = some tok → tok = d.take r.advance)
    (hE : E ≠ .badReadCount) {rd : σ} {D : List UInt8} (hn : D.length ≤ 2049) (hd : Delivers read E rd D 0) {n : Nat}
    {toks : List (List UInt8)} {e : Option IOErr}
    (hc : (newScanner rd 0).collect split read maxScanTokenSize n = .ok (toks, e)) :
    ∃ refs s', collectRefs split read maxScanTokenSize n (newScanner rd 0) = .ok (refs, s') ∧ s'.Err = e ∧
      refs.mapM (SliceRef.read s'.heap) = .ok toks := by
  obtain ⟨refs, s', h1, h2, _, h4⟩ := collectRefs_kept hsp htake hE hn (by decide) n
    (.fresh rfl rfl rfl rfl rfl hd) rfl (newScanner_sane rd 0 maxScanTokenSize (by decide)) hc
  exact ⟨refs, s', h1, h2, h4⟩

end
end Textseg
