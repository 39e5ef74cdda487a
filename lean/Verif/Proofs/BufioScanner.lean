import Verif.Spec.Streaming
/-!
# The Scanner emits the stream of tokens
-/

namespace Textseg
open Spec

namespace Scanner
variable {σ : Type}

/-- The bytes in `s.buf[s.start:s.end]`. -/
def win (s : Scanner σ) : List UInt8 := (s.buf.drop s.start).take (s.stop - s.start)

/-- The offsets are in order. -/
def Bounds (s : Scanner σ) : Prop := s.start ≤ s.stop ∧ s.stop ≤ s.buf.length

theorem window_eq {s : Scanner σ} (h : s.Bounds) : s.window = .ok s.win := if_pos h

theorem win_length {s : Scanner σ} (h : s.Bounds) : s.win.length = s.stop - s.start := by
  unfold Bounds at h
  rw [win, List.length_take, List.length_drop]
  omega

theorem overwrite_length (buf : List UInt8) (off : Nat) (bs : List UInt8) (h : off + bs.length ≤ buf.length) :
    (overwrite buf off bs).length = buf.length := by
  simp only [overwrite, List.length_append, List.length_take, List.length_drop]
  omega

theorem overwrite_win (buf : List UInt8) (start off : Nat) (bs : List UInt8) (h1 : start ≤ off)
    (h : off + bs.length ≤ buf.length) :
    ((overwrite buf off bs).drop start).take (off + bs.length - start) = ((buf.drop start).take (off - start)) ++ bs := by
  have e1 : (overwrite buf off bs).drop start = ((buf.drop start).take (off - start) ++ bs) ++ buf.drop (off + bs.length) := by
    rw [overwrite, List.append_assoc, List.drop_append_of_le_length (by rw [List.length_take]; omega), List.drop_take,
      List.append_assoc]
  rw [e1, List.take_append_of_le_length (by rw [List.length_append, List.length_take, List.length_drop]; omega)]
  apply List.take_of_length_le
  rw [List.length_append, List.length_take, List.length_drop]; omega

theorem overwrite_zero_win (buf : List UInt8) (bs : List UInt8) (h : bs.length ≤ buf.length) :
    ((overwrite buf 0 bs).drop 0).take (bs.length - 0) = bs := by
  have := overwrite_win buf 0 0 bs (Nat.le_refl _) (by omega)
  simpa using this

/-- What the read loop achieves. -/
structure ReadDone (read : Reader σ) (E : IOErr) (s s' : Scanner σ) (D D' : List UInt8) : Prop where
  bounds : s'.Bounds
  len : s'.buf.length = s.buf.length
  start : s'.start = s.start
  done : s'.done = s.done
  data : s'.win ++ D' = s.win ++ D
  alt : (s'.err = none ∧ s.win.length < s'.win.length ∧ Delivers read E s'.rd D' 0 ∧
      (ErrorsTogether read E → D' ≠ [])) ∨
    (s'.err = some E ∧ D' = [] ∧ (ErrorsSeparately read → s'.win = s.win))

theorem setErr_of_none {s : Scanner σ} (h : s.err = none) (e : IOErr) : s.setErr e = { s with err := some e } :=
  if_pos (Or.inl h)

theorem overwrite_keep (buf : List UInt8) (start off : Nat) (bs : List UInt8) (h1 : start ≤ off)
    (h : off ≤ buf.length) :
    ((overwrite buf off bs).drop start).take (off - start) = (buf.drop start).take (off - start) := by
  have e1 : (overwrite buf off bs).drop start = ((buf.drop start).take (off - start)) ++ (bs ++ buf.drop (off + bs.length)) := by
    rw [overwrite, List.append_assoc, List.drop_append_of_le_length (by rw [List.length_take]; omega), List.drop_take]
  rw [e1, List.take_append_of_le_length (by rw [List.length_take, List.length_drop]; omega)]
  apply List.take_of_length_le
  rw [List.length_take, List.length_drop]; omega

/-- The state after a read of `bytes`. -/
def afterRead (s : Scanner σ) (rd : σ) (bytes : List UInt8) : Scanner σ :=
  { s with rd := rd, buf := overwrite s.buf s.stop bytes, stop := s.stop + bytes.length }

theorem afterRead_bounds {s : Scanner σ} (hb : s.Bounds) (rd : σ) {bytes : List UInt8}
    (h : bytes.length ≤ s.buf.length - s.stop) : (s.afterRead rd bytes).Bounds := by
  unfold Bounds at *
  have := overwrite_length s.buf s.stop bytes (by omega)
  simp only [afterRead]
  omega

theorem afterRead_len {s : Scanner σ} (hb : s.Bounds) (rd : σ) {bytes : List UInt8}
    (h : bytes.length ≤ s.buf.length - s.stop) : (s.afterRead rd bytes).buf.length = s.buf.length := by
  unfold Bounds at *
  exact overwrite_length s.buf s.stop bytes (by omega)

theorem afterRead_win {s : Scanner σ} (hb : s.Bounds) (rd : σ) {bytes : List UInt8}
    (h : bytes.length ≤ s.buf.length - s.stop) : (s.afterRead rd bytes).win = s.win ++ bytes := by
  unfold Bounds at *
  exact overwrite_win s.buf s.start s.stop bytes (by omega) (by omega)

theorem afterRead_nil {s : Scanner σ} (rd : σ) : s.afterRead rd [] = { s with rd := rd } := by
  simp [afterRead, overwrite]

theorem readLoop_bad {read : Reader σ} {left : Nat} {s : Scanner σ} {r : ReadResult σ}
    (hr : read s.rd (s.buf.length - s.stop) = r)
    (h1 : r.n < 0 ∨ ((s.buf.length - s.stop : Nat) : Int) < r.n) : readLoop read left s =
    ({ s with rd := r.next, buf := overwrite s.buf s.stop (r.bytes.take (s.buf.length - s.stop)) } : Scanner σ).setErr
      .badReadCount := by
  have e : readOnce read s = (true,
      ({ s with rd := r.next, buf := overwrite s.buf s.stop (r.bytes.take (s.buf.length - s.stop)) } : Scanner σ).setErr
      .badReadCount) := by
    simp only [readOnce, hr]
    rw [if_pos h1]
  cases left <;> simp only [readLoop, e]

/-- A read whose count is in order. -/
theorem readLoop_count {read : Reader σ} {left : Nat} {s : Scanner σ} {r : ReadResult σ}
    (hr : read s.rd (s.buf.length - s.stop) = r)
    (h1 : r.n = r.bytes.length) (h2 : r.bytes.length ≤ s.buf.length - s.stop) : readLoop read left s =
    (match r.err with
      | some e => (s.afterRead r.next r.bytes).setErr e
      | none =>
        if r.bytes = [] then match left with
          | 0 => (s.afterRead r.next []).setErr .noProgress
          | left + 1 => readLoop read left (s.afterRead r.next [])
        else { s.afterRead r.next r.bytes with empties := 0 }) := by
  have e : readOnce read s = (match r.err with
      | some e => (true, (s.afterRead r.next r.bytes).setErr e)
      | none => if r.bytes = [] then (false, s.afterRead r.next [])
        else (true, { s.afterRead r.next r.bytes with empties := 0 })) := by
    simp only [readOnce, hr]
    rw [if_neg (by omega), List.take_of_length_le h2]
    have e : r.n.toNat = r.bytes.length := by omega
    cases he : r.err with
    | some e' => simp only [e]; rfl
    | none =>
      simp only [e]
      by_cases hb : r.bytes = []
      · rw [if_neg (by rw [h1, hb]; simp), if_pos hb, hb]; rfl
      · rw [if_pos (by have := List.length_pos_iff.mpr hb; omega), if_neg hb]; rfl
  cases he : r.err with
  | some e' => rw [he] at e; cases left <;> simp only [readLoop, e]
  | none =>
    rw [he] at e
    by_cases hb : r.bytes = []
    · simp only [if_pos hb] at e ⊢
      cases left <;> simp only [readLoop, e]
    · simp only [if_neg hb] at e ⊢
      cases left <;> simp only [readLoop, e]

/-- One read. -/
theorem readStep_spec {read : Reader σ} {E : IOErr} {left : Nat} {s : Scanner σ} {D rest : List UInt8} {k : Nat}
    {r : ReadResult σ}
    (hb : s.Bounds) (hroom : s.stop < s.buf.length) (he : s.err = none)
    (hr : read s.rd (s.buf.length - s.stop) = r)
    (hstep : ReadStep E r (s.buf.length - s.stop) k D rest)
    (hnext : Continues r (s.buf.length - s.stop) k → Delivers read E r.next rest (if r.bytes = [] then k + 1 else 0))
    (hk : k + left = 100)
    (hrec : k < 100 → ∀ left', left = left' + 1 → Delivers read E r.next D (k + 1) →
      ∃ D', ReadDone read E s (readLoop read left' { s with rd := r.next }) D D') :
    ∃ D', ReadDone read E s (readLoop read left s) D D' := by
  cases hstep with
  | badCount h1 h2 =>
    refine ⟨[], ?_⟩
    rw [readLoop_bad hr h1, setErr_of_none (by exact he)]
    have hl := overwrite_length s.buf s.stop (r.bytes.take (s.buf.length - s.stop))
      (by rw [List.length_take]; unfold Bounds at hb; omega)
    have hw := overwrite_keep s.buf s.start s.stop (r.bytes.take (s.buf.length - s.stop)) hb.1 hb.2
    exact ⟨⟨hb.1, by rw [hl]; exact hb.2⟩, hl, rfl, rfl, by rw [List.append_nil, List.append_nil]; exact hw,
      Or.inr ⟨by rw [h2], rfl, fun _ => hw⟩⟩
  | last h1 h2 h3 =>
    refine ⟨[], ?_⟩
    rw [readLoop_count hr h1 h2, h3]
    simp only
    rw [setErr_of_none (by exact he)]
    refine ⟨afterRead_bounds hb r.next h2, afterRead_len hb r.next h2, rfl, rfl, ?_, Or.inr ⟨rfl, rfl, ?_⟩⟩
    · rw [List.append_nil]; exact afterRead_win hb r.next h2
    · intro hs
      have := hs s.rd (s.buf.length - s.stop)
      rw [hr, h3] at this
      have h := this (by simp)
      have e := afterRead_win hb r.next h2
      rw [h, List.append_nil] at e
      rw [h]; exact e
  | stuck h1 h2 h3 h4 h5 =>
    refine ⟨[], ?_⟩
    have hl : left = 0 := by omega
    subst hl
    rw [readLoop_count hr (by rw [h1, h2]; rfl) (by rw [h2]; exact Nat.zero_le _), h3]
    simp only
    rw [if_pos h2, afterRead_nil, setErr_of_none (by exact he)]
    exact ⟨hb, rfl, rfl, rfl, rfl, Or.inr ⟨by rw [h5], rfl, fun _ => rfl⟩⟩
  | bytes _ h1 h2 h3 h4 =>
    have hd := hnext ⟨by omega, by omega, h3, h4⟩
    by_cases h : r.bytes = []
    · rw [if_pos h] at hd
      rw [h, List.nil_append] at hrec ⊢
      match left, hk with
      | 0, hk => exact absurd (h4 h) (by omega)
      | left + 1, hk =>
        obtain ⟨D', hD⟩ := hrec (h4 h) left rfl hd
        refine ⟨D', ?_⟩
        rw [readLoop_count hr h1 h2, h3]
        simp only
        rw [if_pos h, afterRead_nil]
        exact hD
    · rw [if_neg h] at hd
      refine ⟨rest, ?_⟩
      rw [readLoop_count hr h1 h2, h3]
      simp only
      rw [if_neg h]
      have hw : Scanner.win { s.afterRead r.next r.bytes with empties := 0 } = s.win ++ r.bytes := afterRead_win hb r.next h2
      refine ⟨afterRead_bounds hb r.next h2, afterRead_len hb r.next h2, rfl, rfl, ?_, Or.inl ⟨he, ?_, hd, ?_⟩⟩
      · rw [hw, List.append_assoc]
      · rw [hw, List.length_append]
        have := List.length_pos_iff.mpr h
        omega
      · intro ht h0
        have := ht s.rd (s.buf.length - s.stop) (by omega) (by rw [hr]; exact h3) 0
        rw [hr] at this
        rw [h0] at hd
        exact this hd

/-- The read loop, by induction on the number of empty reads that are still tolerated. -/
theorem readLoop_spec (read : Reader σ) (E : IOErr) (left : Nat) : ∀ (s : Scanner σ) (D : List UInt8) (k : Nat),
    s.Bounds → s.stop < s.buf.length → s.err = none → Delivers read E s.rd D k → k + left = 100 →
    ∃ D', ReadDone read E s (readLoop read left s) D D' := by
  induction left with
  | zero =>
    intro s D k hb hroom he hd hk
    cases hd with
    | mk _ _ _ rest hstep hnext =>
    have hroom' : 0 < s.buf.length - s.stop := by omega
    have h1 := hstep _ hroom'
    have h2 := hnext _ hroom'
    obtain ⟨r, hr⟩ : ∃ r, read s.rd (s.buf.length - s.stop) = r := ⟨_, rfl⟩
    rw [hr] at h1 h2
    exact readStep_spec hb hroom he hr h1 h2 hk (fun h => absurd h (by omega))
  | succ left ih =>
    intro s D k hb hroom he hd hk
    cases hd with
    | mk _ _ _ rest hstep hnext =>
    have hroom' : 0 < s.buf.length - s.stop := by omega
    have h1 := hstep _ hroom'
    have h2 := hnext _ hroom'
    obtain ⟨r, hr⟩ : ∃ r, read s.rd (s.buf.length - s.stop) = r := ⟨_, rfl⟩
    rw [hr] at h1 h2
    refine readStep_spec hb hroom he hr h1 h2 hk ?_
    intro hk' left' hl hd
    cases hl
    have hb' : ({ s with rd := r.next } : Scanner σ).Bounds := hb
    obtain ⟨D', h⟩ := ih { s with rd := r.next } D (k + 1) hb' hroom he hd (by omega)
    exact ⟨D', h.bounds, h.len, h.start, h.done, h.data, h.alt⟩

/-- How the length of the buffer relates to the limit `M` on the token size and to the largest length `C` it can get. -/
def SizeOk (M C len : Nat) : Prop := 0 < C ∧ ((len < M ∧ C = M) ∨ (M ≤ len ∧ len = C))

theorem SizeOk.le {M C len : Nat} (h : SizeOk M C len) : len ≤ C := by unfold SizeOk at h; omega

theorem SizeOk.max {M C len : Nat} (h : SizeOk M C len) : Max.max len M = C := by unfold SizeOk at h; omega

theorem sizeOk_newSize {M C len : Nat} (h : SizeOk M C len) (hl : len < M) :
    len < newSize M len ∧ SizeOk M C (newSize M len) := by
  unfold SizeOk at *
  have : newSize M len ≤ M ∧ len < newSize M len := by
    unfold newSize startBufSize
    split <;> omega
  omega

/-- The Scanner is between two rounds, the bytes `rest` are still to be split (or to be read), and `E` comes after them. -/
structure At (read : Reader σ) (E : IOErr) (M C : Nat) (s : Scanner σ) (rest : List UInt8) : Prop where
  notDone : s.done = false
  bounds : s.Bounds
  size : SizeOk M C s.buf.length
  alt : (s.err = none ∧ ∃ D, s.win ++ D = rest ∧ Delivers read E s.rd D 0 ∧
      (ErrorsTogether read E → s.win ≠ [] → D ≠ [])) ∨
    (s.err = some E ∧ s.win = rest ∧ rest.length ≤ C ∧ (ErrorsSeparately read → rest.length < C))

theorem win_of_zero {s : Scanner σ} (hs : s.start = 0) : s.win = s.buf.take s.stop := by
  rw [win, hs]; rfl

theorem shift_spec {s : Scanner σ} (hb : s.Bounds) :
    (s.shift s.win).Bounds ∧ (s.shift s.win).win = s.win ∧ (s.shift s.win).buf.length = s.buf.length ∧
    ((s.shift s.win).stop = (s.shift s.win).buf.length → (s.shift s.win).start = 0) ∧
    (s.shift s.win).err = s.err ∧ (s.shift s.win).rd = s.rd ∧ (s.shift s.win).done = s.done := by
  have hw := win_length hb
  unfold shift
  split
  · rename_i h
    have hl : s.win.length ≤ s.buf.length := by unfold Bounds at hb; omega
    have hl' := overwrite_length s.buf 0 s.win (by omega)
    refine ⟨⟨Nat.zero_le _, ?_⟩, ?_, hl', fun _ => rfl, rfl, rfl, rfl⟩
    · show s.stop - s.start ≤ (overwrite s.buf 0 s.win).length
      unfold Bounds at hb
      omega
    · have := overwrite_zero_win s.buf s.win hl
      rw [hw] at this
      exact this
  · rename_i h
    refine ⟨hb, rfl, rfl, ?_, rfl, rfl, rfl⟩
    intro h'
    exact Decidable.byContradiction fun h0 => h ⟨by omega, Or.inl h'⟩

theorem grow_spec {M C : Nat} {s : Scanner σ} (hb : s.Bounds) (hz : s.stop = s.buf.length → s.start = 0)
    (hs : SizeOk M C s.buf.length) :
    (s.grow M s.win = none ∧ s.win.length = C) ∨
    ∃ s', s.grow M s.win = some s' ∧ s'.Bounds ∧ s'.win = s.win ∧ s'.stop < s'.buf.length ∧ SizeOk M C s'.buf.length ∧
      s'.err = s.err ∧ s'.rd = s.rd ∧ s'.done = s.done := by
  have hw := win_length hb
  unfold grow
  by_cases h : s.stop = s.buf.length
  · rw [if_pos h]
    have h0 := hz h
    by_cases hM : M ≤ s.buf.length
    · rw [if_pos hM]
      refine Or.inl ⟨rfl, ?_⟩
      unfold SizeOk at hs
      omega
    · rw [if_neg hM]
      obtain ⟨h1, h2⟩ := sizeOk_newSize hs (by omega)
      have hl : s.win.length ≤ (List.replicate (newSize M s.buf.length) (0 : UInt8)).length := by
        rw [List.length_replicate]; omega
      have hl' := overwrite_length (List.replicate (newSize M s.buf.length) (0 : UInt8)) 0 s.win (by omega)
      rw [List.length_replicate] at hl'
      refine Or.inr ⟨_, rfl, ⟨Nat.zero_le _, ?_⟩, ?_, ?_, ?_, rfl, rfl, rfl⟩
      · show s.stop - s.start ≤ (overwrite _ 0 s.win).length
        omega
      · have := overwrite_zero_win _ s.win hl
        rw [hw] at this
        exact this
      · show s.stop - s.start < (overwrite _ 0 s.win).length
        omega
      · show SizeOk M C (overwrite _ 0 s.win).length
        rw [hl']; exact h2
  · rw [if_neg h]
    exact Or.inr ⟨s, rfl, hb, rfl, by unfold Bounds at hb; omega, hs, rfl, rfl, rfl⟩

/-- What a round achieves. -/
inductive RoundDone (split : SplitFunc) (read : Reader σ) (E : IOErr) (M C : Nat) (s : Scanner σ) (rest : List UInt8) :
    Option Bool × Scanner σ → Prop
  | again (s' : Scanner σ) : At read E M C s' rest → s.err = none → (s'.err ≠ none ∨ s.win.length < s'.win.length) →
      RoundDone split read E M C s rest (none, s')
  | token (s' : Scanner σ) (r : SplitResult) (tok : List UInt8) : rest ≠ [] → split rest true = .ok r →
      r.token = some tok → r.err = none → s'.token = some tok → At read E M C s' (rest.drop r.advance) →
      (Overlong split C rest → ¬ ErrorsSeparately read ∧ rest.length = C) →
      0 < r.advance →
      RoundDone split read E M C s rest (some true, s')
  | finish (s' : Scanner σ) : rest = [] → s'.err = some E → RoundDone split read E M C s rest (some false, s')
  | tooLong (s' : Scanner σ) : Overlong split C rest → (¬ ErrorsTogether read E ∨ C < rest.length) →
      s'.err = some .tooLong →
      RoundDone split read E M C s rest (some false, s')

theorem more_spec {split : SplitFunc} (read : Reader σ) (E : IOErr) {M C : Nat} {s : Scanner σ}
    {rest D : List UInt8} (hdone : s.done = false) (hb : s.Bounds) (hs : SizeOk M C s.buf.length) (he : s.err = none)
    (hd : s.win ++ D = rest) (hD : Delivers read E s.rd D 0) (hT : ErrorsTogether read E → s.win ≠ [] → D ≠ [])
    (hu : s.win ≠ [] → ∃ r, split s.win false = .ok r ∧ r.token = none) :
    ∃ x, s.more read M = .ok x ∧ RoundDone split read E M C s rest x := by
  obtain ⟨h1, h2, h3, h4, h5, h6, h7⟩ := shift_spec hb
  have hg := grow_spec h1 h4 (by rw [h3]; exact hs)
  rw [h2] at hg
  unfold more
  rw [if_neg (by rw [he]; simp), window_eq hb]
  simp only [bind, Except.bind]
  rcases hg with ⟨hg, hC⟩ | ⟨s', hg, g1, g2, g3, g4, g5, g6, g7⟩
  · rw [hg]
    have hne : s.win ≠ [] := by
      intro h
      rw [h] at hC
      have := hs.1
      simp only [List.length_nil] at hC
      omega
    refine ⟨_, rfl, .tooLong _ ?_ ?_ ?_⟩
    · obtain ⟨r, hr, hr'⟩ := hu hne
      refine ⟨by rw [← hd, List.length_append]; omega, r, ?_, hr'⟩
      rw [← hd, ← hC, List.take_left]; exact hr
    · by_cases hTg : ErrorsTogether read E
      · have := List.length_pos_iff.mpr (hT hTg hne)
        exact Or.inr (by rw [← hd, List.length_append]; omega)
      · exact Or.inl hTg
    · rw [setErr_of_none (by rw [h5]; exact he)]
  · rw [hg]
    simp only [maxConsecutiveEmptyReads]
    obtain ⟨D', r⟩ := readLoop_spec read E 100 s' D 0 g1 g3 (by rw [g5, h5]; exact he) (by rw [g6, h6]; exact hD) rfl
    refine ⟨_, rfl, .again _ ⟨by rw [r.done, g7, h7]; exact hdone, r.bounds, by rw [r.len]; exact g4, ?_⟩ he ?_⟩
    · rcases r.alt with ⟨a1, a2, a3, a4⟩ | ⟨a1, a2, a3⟩
      · exact Or.inl ⟨a1, D', by rw [r.data, g2]; exact hd, a3, fun h _ => a4 h⟩
      · have e : (readLoop read 100 s').win = rest := by
          have := r.data
          rw [a2, List.append_nil, g2] at this
          rw [this]; exact hd
        have hl := win_length r.bounds
        have hle : (readLoop read 100 s').win.length ≤ (readLoop read 100 s').buf.length := by
          have := r.bounds.2; omega
        rw [r.len] at hle
        refine Or.inr ⟨a1, e, ?_, ?_⟩
        · rw [← e]; exact Nat.le_trans hle g4.le
        · intro hsep
          rw [← e, a3 hsep, win_length g1]
          have := g4.le
          omega
    · rcases r.alt with ⟨a1, a2, a3, a4⟩ | ⟨a1, a2, a3⟩
      · exact Or.inr (by rw [← g2]; exact a2)
      · exact Or.inl (by rw [a1]; simp)

theorem drop_win {s : Scanner σ} (hb : s.Bounds) {n : Nat} (h : n ≤ s.win.length) :
    (({ s with start := s.start + n } : Scanner σ).Bounds) ∧
    (({ s with start := s.start + n } : Scanner σ).win = s.win.drop n) := by
  have hw := win_length hb
  unfold Bounds at hb
  refine ⟨⟨?_, hb.2⟩, ?_⟩
  · show s.start + n ≤ s.stop
    omega
  · show (s.buf.drop (s.start + n)).take (s.stop - (s.start + n)) = _
    rw [win, List.drop_take, List.drop_drop]
    congr 1
    omega

/-- A round of the loop. -/
theorem round_spec {split : SplitFunc} (hsp : GoodSplit split) (read : Reader σ) (E : IOErr) {M C : Nat} {s : Scanner σ}
    {rest : List UInt8} (h : At read E M C s rest) :
    ∃ x, s.round split read M = .ok x ∧ RoundDone split read E M C s rest x := by
  have hwl := win_length h.bounds
  have hb := h.bounds
  by_cases hcond : s.start < s.stop ∨ s.err ≠ none
  · unfold round
    rw [if_pos hcond, window_eq h.bounds]
    obtain ⟨r, hr, hre, hra, hrt⟩ := hsp.total s.win (s.err != none)
    simp only [bind, Except.bind, hr, hre]
    rw [if_neg (by omega)]
    cases ht : r.token with
    | some tok =>
      have hadv : 0 < r.advance := by
        rcases Nat.eq_zero_or_pos r.advance with h0 | h0
        · rw [hrt.mpr h0] at ht; cases ht
        · exact h0
      obtain ⟨d1, d2⟩ := drop_win (s := s) h.bounds hra
      simp only
      rw [if_pos (Or.inr hadv)]
      have hne : s.win ≠ [] := by
        intro h0
        rw [h0] at hra
        simp only [List.length_nil] at hra
        omega
      refine ⟨_, rfl, ?_⟩
      rcases h.alt with ⟨he, D, hD, hdel, hT⟩ | ⟨he, hD, hC, hsep⟩
      · have hr' : split s.win false = .ok r := by
          have : (s.err != none) = false := by rw [he]; rfl
          rw [this] at hr; exact hr
        have hfin := hsp.final s.win r hr' (by rw [ht]; simp)
        refine .token _ r tok ?_ ?_ ht hre rfl ⟨h.notDone, d1, h.size, Or.inl ⟨he, D, ?_, hdel, fun ht _ => hT ht hne⟩⟩ ?_ hadv
        · rw [← hD]; intro h0
          exact hne (List.append_eq_nil_iff.mp h0).1
        · rw [← hD]; exact hfin D true
        · rw [← hD, List.drop_append_of_le_length hra, ← d2]; rfl
        · rintro ⟨o1, r', o2, o3⟩
          have hle : s.win.length ≤ C := by have := h.size.le; have := hb.2; omega
          have : rest.take C = s.win ++ D.take (C - s.win.length) := by
            rw [← hD, List.take_append, List.take_of_length_le hle]
          rw [this, hfin] at o2
          cases o2
          rw [ht] at o3; cases o3
      · have hr' : split s.win true = .ok r := by
          have : (s.err != none) = true := by rw [he]; rfl
          rw [this] at hr; exact hr
        rw [hD] at hr'
        have hlen : (rest.drop r.advance).length < C := by
          rw [List.length_drop]
          have := h.size.1
          have : s.win.length = rest.length := by rw [hD]
          omega
        refine .token _ r tok (by rw [← hD]; exact hne) hr' ht hre rfl
          ⟨h.notDone, d1, h.size, Or.inr ⟨he, ?_, Nat.le_of_lt hlen, fun _ => hlen⟩⟩ ?_ hadv
        · rw [← hD, ← d2]; rfl
        · rintro ⟨o1, _⟩
          exact ⟨fun hs => by have := hsep hs; omega, by omega⟩
    | none =>
      have h0 := hrt.mp ht
      simp only [h0, Nat.add_zero]
      rcases h.alt with ⟨he, D, hD, hdel, hT⟩ | ⟨he, hD, hC, hsep⟩
      · have hr' : split s.win false = .ok r := by
          have : (s.err != none) = false := by rw [he]; rfl
          rw [this] at hr; exact hr
        obtain ⟨x, hx, hx'⟩ := more_spec (split := split) read E (M := M) (C := C) (s := { s with token := none }) (rest := rest)
          (D := D) h.notDone h.bounds h.size he hD hdel hT (fun _ => ⟨r, hr', ht⟩)
        refine ⟨x, hx, ?_⟩
        cases hx' with
        | again s' a1 a2 a3 => exact .again s' a1 a2 a3
        | token s' r tok a1 a2 a3 a4 a5 a6 a7 a8 => exact .token s' r tok a1 a2 a3 a4 a5 a6 a7 a8
        | finish s' a1 a2 => exact .finish s' a1 a2
        | tooLong s' a1 a2 a3 => exact .tooLong s' a1 a2 a3
      · have hempty : s.win = [] := by
          refine Decidable.byContradiction fun hne => ?_
          obtain ⟨r', hr', ht'⟩ := hsp.eof s.win hne
          have : (s.err != none) = true := by rw [he]; rfl
          rw [this, hr'] at hr
          cases hr
          exact ht' ht
        unfold more
        rw [if_pos (by show s.err ≠ none; rw [he]; simp)]
        exact ⟨_, rfl, .finish _ (by rw [← hD]; exact hempty) he⟩
  · have he : s.err = none := Decidable.byContradiction fun h => hcond (Or.inr h)
    unfold round
    rw [if_neg hcond]
    rcases h.alt with ⟨_, D, hD, hdel, hT⟩ | ⟨he', _⟩
    · refine more_spec read E h.notDone h.bounds h.size he hD hdel hT (fun hne => absurd ?_ hne)
      apply List.eq_nil_of_length_eq_zero
      have : ¬ s.start < s.stop := fun h => hcond (Or.inl h)
      omega
    · rw [he] at he'; cases he'

/-- What a call of `Scan` achieves. -/
inductive ScanDone (split : SplitFunc) (read : Reader σ) (E : IOErr) (M C : Nat) (rest : List UInt8) :
    Bool × Scanner σ → Prop
  | token (s' : Scanner σ) (r : SplitResult) (tok : List UInt8) : rest ≠ [] → split rest true = .ok r →
      r.token = some tok → r.err = none → s'.token = some tok → At read E M C s' (rest.drop r.advance) →
      (Overlong split C rest → ¬ ErrorsSeparately read ∧ rest.length = C) →
      0 < r.advance → ScanDone split read E M C rest (true, s')
  | finish (s' : Scanner σ) : rest = [] → s'.err = some E → ScanDone split read E M C rest (false, s')
  | tooLong (s' : Scanner σ) : Overlong split C rest → (¬ ErrorsTogether read E ∨ C < rest.length) →
      s'.err = some .tooLong → ScanDone split read E M C rest (false, s')

theorem loop_spec {split : SplitFunc} (hsp : GoodSplit split) (read : Reader σ) (E : IOErr) {M C : Nat}
    {rest : List UInt8} (fuel : Nat) : ∀ s : Scanner σ, At read E M C s rest →
    0 < fuel → (s.err = none → C + 2 ≤ fuel + s.win.length) →
    ∃ x, s.loop split read M fuel = .ok x ∧ ScanDone split read E M C rest x := by
  induction fuel with
  | zero => intro s _ h; exact absurd h (by omega)
  | succ fuel ih =>
    intro s h _ hf
    obtain ⟨x, hx, hx'⟩ := round_spec hsp read E h
    unfold loop
    simp only [bind, Except.bind, hx]
    have hwl := win_length h.bounds
    have hb := h.bounds
    have hle : s.win.length ≤ C := by have := h.size.le; unfold Bounds at hb; omega
    cases hx' with
    | again s' a1 a2 a3 =>
      have := hf a2
      refine ih s' a1 (by omega) ?_
      intro he
      rcases a3 with a3 | a3
      · exact absurd he a3
      · omega
    | token s' r tok a1 a2 a3 a4 a5 a6 a7 a8 => exact ⟨_, rfl, .token s' r tok a1 a2 a3 a4 a5 a6 a7 a8⟩
    | finish s' a1 a2 => exact ⟨_, rfl, .finish s' a1 a2⟩
    | tooLong s' a1 a2 a3 => exact ⟨_, rfl, .tooLong s' a1 a2 a3⟩

theorem loop_mono (split : SplitFunc) (read : Reader σ) (M : Nat) (fuel : Nat) : ∀ {s : Scanner σ} {x : Bool × Scanner σ},
    s.loop split read M fuel = .ok x → s.loop split read M (fuel + 1) = .ok x := by
  induction fuel with
  | zero => intro s x h; cases h
  | succ fuel ih =>
    intro s x h
    unfold loop at h ⊢
    simp only [bind, Except.bind] at h ⊢
    cases hr : s.round split read M with
    | error e => rw [hr] at h; cases h
    | ok y =>
      rw [hr] at h
      obtain ⟨o, s'⟩ := y
      cases o with
      | some b => exact h
      | none => exact ih h

theorem Scan_spec {split : SplitFunc} (hsp : GoodSplit split) (read : Reader σ) (E : IOErr) {M C : Nat}
    {rest : List UInt8} {s : Scanner σ} (h : At read E M C s rest) :
    ∃ x, s.Scan split read M = .ok x ∧ ScanDone split read E M C rest x := by
  unfold Scan
  rw [h.notDone, h.size.max]
  exact loop_spec hsp read E (C + 2) s h (by omega) (fun _ => by omega)

/-- `Err` of the error that ended the stream. -/
def errOf (e : IOErr) : Option IOErr := if e = .eof then none else some e

theorem Err_eq {s : Scanner σ} {e : IOErr} (h : s.err = some e) : s.Err = errOf e := by
  unfold Err errOf
  rw [h]
  by_cases he : e = .eof
  · rw [if_pos (by rw [he]), if_pos he]
  · rw [if_neg (by intro h; exact he (Option.some.inj h)), if_neg he]

theorem collect_spec {split : SplitFunc} (hsp : GoodSplit split) (read : Reader σ) (E : IOErr) {M C : Nat} (n : Nat) :
    ∀ (s : Scanner σ) (rest : List UInt8), rest.length ≤ n → At read E M C s rest →
    ∃ toks F, Streams split C (¬ ErrorsSeparately read) (¬ ErrorsTogether read E) E rest toks F ∧
      ∀ fuel, rest.length < fuel → s.collect split read M fuel = .ok (toks, errOf F) := by
  induction n with
  | zero =>
    intro s rest hl h
    obtain ⟨x, hx, hx'⟩ := Scan_spec hsp read E h
    cases hx' with
    | token s' r tok a1 a2 a3 a4 a5 a6 a7 a8 =>
      exact absurd (List.eq_nil_of_length_eq_zero (by omega)) a1
    | finish s' a1 a2 =>
      refine ⟨[], E, by rw [a1]; exact .done, fun fuel hf => ?_⟩
      match fuel, hf with
      | fuel + 1, _ => simp only [collect, bind, Except.bind, hx, Err_eq a2]
    | tooLong s' a1 a2 a3 =>
      refine ⟨[], .tooLong, .tooLong _ a1 a2, fun fuel hf => ?_⟩
      match fuel, hf with
      | fuel + 1, _ => simp only [collect, bind, Except.bind, hx, Err_eq a3]
  | succ n ih =>
    intro s rest hl h
    obtain ⟨x, hx, hx'⟩ := Scan_spec hsp read E h
    cases hx' with
    | token s' r tok a1 a2 a3 a4 a5 a6 a7 a8 =>
      have hlen : (rest.drop r.advance).length < rest.length := by
        rw [List.length_drop]
        have := List.length_pos_iff.mpr a1
        omega
      obtain ⟨toks, F, h1, h2⟩ := ih s' (rest.drop r.advance) (by omega) a6
      refine ⟨tok :: toks, F, .token _ r tok toks F a1 a7 a2 a3 a4 h1, fun fuel hf => ?_⟩
      match fuel, hf with
      | fuel + 1, hf =>
        simp only [collect, bind, Except.bind, hx, h2 fuel (by omega), Bytes, a5, Option.getD]
    | finish s' a1 a2 =>
      refine ⟨[], E, by rw [a1]; exact .done, fun fuel hf => ?_⟩
      match fuel, hf with
      | fuel + 1, _ => simp only [collect, bind, Except.bind, hx, Err_eq a2]
    | tooLong s' a1 a2 a3 =>
      refine ⟨[], .tooLong, .tooLong _ a1 a2, fun fuel hf => ?_⟩
      match fuel, hf with
      | fuel + 1, _ => simp only [collect, bind, Except.bind, hx, Err_eq a3]

theorem newScanner_at (read : Reader σ) (E : IOErr) (rd : σ) (D : List UInt8) (b0 M : Nat) (hC : 0 < max b0 M)
    (h : Delivers read E rd D 0) : At read E M (max b0 M) (newScanner rd b0) D := by
  refine ⟨rfl, ⟨Nat.le_refl _, Nat.zero_le _⟩, ?_, Or.inl ⟨rfl, D, rfl, h, fun _ h => absurd (by simp [win, newScanner]) h⟩⟩
  simp only [newScanner, List.length_replicate, SizeOk]
  omega

/-- The whole life of a Scanner. -/
theorem stream_spec {split : SplitFunc} (hsp : GoodSplit split) (read : Reader σ) (E : IOErr) (rd : σ) (D : List UInt8)
    (b0 M : Nat) (hC : 0 < max b0 M) (h : Delivers read E rd D 0) :
    ∃ toks F, Streams split (max b0 M) (¬ ErrorsSeparately read) (¬ ErrorsTogether read E) E D toks F ∧
      ∀ fuel, D.length < fuel → (newScanner rd b0).collect split read M fuel = .ok (toks, errOf F) :=
  collect_spec hsp read E D.length _ D (Nat.le_refl _) (newScanner_at read E rd D b0 M hC h)

end Scanner
end Textseg
