import Verif.Model.UCDSlices
import Verif.Proofs.UCDParse
import Verif.Proofs.Retain
/-!
# The fields of entries as slices of the buffer of the line Scanner
-/

namespace Textseg
open Spec Scanner

/-! ## Where the fields lie in the line -/

theorem scanLines_prefix {d : List UInt8} {b : Bool} {r : SplitResult} {tok : List UInt8} (h : ScanLines d b = .ok r)
    (ht : r.token = some tok) : tok <+: d := by
  have hcr : ∀ x : List UInt8, dropCR x <+: x := by
    intro x
    unfold dropCR
    split
    · exact List.dropLast_prefix x
    · exact List.prefix_rfl
  unfold ScanLines at h
  split at h
  · cases h; cases ht
  · cases hi : indexByte 0x0A d with
    | some i =>
      rw [hi] at h
      cases h
      cases ht
      exact (hcr _).trans (List.take_prefix _ _)
    | none =>
      rw [hi] at h
      cases b with
      | true => cases h; cases ht; exact hcr _
      | false => cases h; cases ht

theorem prefix_take {a b : List UInt8} (h : a <+: b) : b.take a.length = a := (List.prefix_iff_eq_take.mp h).symm

theorem fieldsSpan_spec {raw : List UInt8} {e : Entry} (h : parseLine raw = some (.ok e)) :
    (fieldsSpan raw).1 + (fieldsSpan raw).2 ≤ raw.length ∧
    (raw.drop (fieldsSpan raw).1).take (fieldsSpan raw).2 = e.Fields := by
  have hbody : (bytesCut raw commentMarker).1 <+: raw := by
    unfold bytesCut
    cases bytesIndex commentMarker raw with
    | some i => exact List.take_prefix _ _
    | none => exact List.prefix_rfl
  unfold fieldsSpan
  unfold parseLine at h
  rcases hc : bytesCut raw commentMarker with ⟨body, c, bb⟩
  rw [hc] at h hbody
  simp only at h hbody ⊢
  unfold bytesCut at h
  cases hi : bytesIndex fieldSeparator body with
  | none => rw [hi] at h; cases h
  | some i =>
    rw [hi] at h
    simp only at h ⊢
    have hf : e.Fields = TrimSpace (body.drop (i + fieldSeparator.length)) := by
      revert h
      repeat' split
      all_goals first
        | (intro h; cases h; done)
        | (intro h; cases h; rfl)
    generalize hfr : body.drop (i + fieldSeparator.length) = fr at *
    obtain ⟨w, -, h1, -⟩ := trimLeft_split fr fr.length (Nat.le_refl _)
    generalize ht : trimLeft fr.length fr = t at *
    obtain ⟨w', -, h2, -⟩ := trimRight_split t t.length (Nat.le_refl _)
    have htr : TrimSpace fr = trimRight t.length t := by unfold TrimSpace; simp only [ht]
    rw [← htr] at h2
    have hl1 := congrArg List.length h1
    have hl2 := congrArg List.length h2
    rw [List.length_append] at hl1 hl2
    obtain ⟨v, hv⟩ := hbody
    have hl3 := congrArg List.length hfr
    rw [List.length_drop] at hl3
    have hl4 := congrArg List.length hv
    rw [List.length_append] at hl4
    have hd : body.drop (i + fieldSeparator.length + (fr.length - t.length)) = t := by
      rw [← List.drop_drop, hfr, show fr.length - t.length = w.length by omega, h1, List.drop_left]
    by_cases hib : i + fieldSeparator.length + (fr.length - t.length) ≤ body.length
    · refine ⟨?_, ?_⟩
      · have := congrArg List.length hd
        rw [List.length_drop] at this
        omega
      · rw [← hv, List.drop_append_of_le_length hib, hd, hf,
          List.take_append_of_le_length (by omega)]
        conv => lhs; rw [h2]
        rw [htr]
        exact List.take_left
    · -- nothing after the separator: impossible, since the separator was found
      exfalso
      have hbd : ∀ (sep s : List UInt8) (i : Nat), bytesIndex sep s = some i → i + sep.length ≤ s.length := by
        intro sep s
        induction s with
        | nil =>
          intro i h
          unfold bytesIndex at h
          split at h
          · next h0 => cases h; rw [h0]; exact Nat.le_refl _
          · cases h
        | cons b rest ih =>
          intro i h
          unfold bytesIndex at h
          split at h
          · next h0 =>
            cases h
            have := (List.isPrefixOf_iff_prefix.mp h0).length_le
            omega
          · rw [Option.map_eq_some_iff] at h
            obtain ⟨j, hj, rfl⟩ := h
            have := ih j hj
            rw [List.length_cons]
            omega
      have := hbd _ _ _ hi
      omega

/-! ## The line as a slice -/

section
variable {σ : Type}

theorem loopRef_erase (split : SplitFunc) (read : Reader σ) (M : Nat) (fuel : Nat) : ∀ s : Scanner σ,
    (loopRef split read M fuel s).map (fun x => (x.1, x.2.1)) = loop split read M fuel s := by
  induction fuel with
  | zero => intro s; rfl
  | succ fuel ih =>
    intro s
    rw [loopRef, loop]
    cases round split read M s with
    | error e => rfl
    | ok x =>
      obtain ⟨o, s'⟩ := x
      simp only [bind, Except.bind]
      cases o with
      | some b => rfl
      | none => exact ih s'

theorem ScanRef_erase (split : SplitFunc) (read : Reader σ) (M : Nat) (s : Scanner σ) :
    (s.ScanRef split read M).map (fun x => (x.1, x.2.1)) = s.Scan split read M := by
  unfold ScanRef Scan
  split
  · rfl
  · exact loopRef_erase split read M _ s

/-- A round that yields a token. -/
theorem round_token {split : SplitFunc} (hsp : GoodSplit split)
    (hpre : ∀ d b r tok, split d b = .ok r → r.token = some tok → tok <+: d)
    {read : Reader σ} {M C : Nat} {s s' : Scanner σ} (hs : Sane M C s) (hx : s.round split read M = .ok (some true, s')) :
    ∃ tok, s'.token = some tok ∧ tok <+: s.win ∧ s'.old = s.old ∧ s'.buf = s.buf ∧ s.start < s.stop := by
  have hmore : ∀ {s s' : Scanner σ}, s.more read M = .ok (some true, s') → False := by
    intro s s' hx
    unfold more at hx
    split at hx
    · cases hx
    · simp only [bind, Except.bind] at hx
      split at hx
      · cases hx
      · split at hx <;> cases hx
  have hwl := win_length hs.bounds
  unfold round at hx
  by_cases hcond : s.start < s.stop ∨ s.err ≠ none
  · rw [if_pos hcond, window_eq hs.bounds] at hx
    obtain ⟨r, hr, hre, hra, hrt⟩ := hsp.total s.win (s.err != none)
    simp only [bind, Except.bind, hr, hre] at hx
    rw [if_neg (by omega)] at hx
    cases ht : r.token with
    | some tok =>
      have hadv : 0 < r.advance := by
        rcases Nat.eq_zero_or_pos r.advance with h0 | h0
        · rw [hrt.mpr h0] at ht; cases ht
        · exact h0
      rw [ht] at hx
      simp only at hx
      rw [if_pos (Or.inr hadv)] at hx
      cases hx
      exact ⟨tok, rfl, hpre _ _ _ _ hr ht, rfl, rfl, by omega⟩
    | none =>
      simp only [ht] at hx
      exact (hmore hx).elim
  · rw [if_neg hcond] at hx
    exact (hmore hx).elim

theorem read_of_win {s : Scanner σ} (hb : s.Bounds) {tok : List UInt8} (h : tok <+: s.win) {heap : List (List UInt8)} {i : Nat}
    (hh : heap[i]? = some s.buf) : SliceRef.read heap ⟨i, s.start, s.start + tok.length⟩ = .ok tok := by
  have hl := h.length_le
  rw [win_length hb] at hl
  unfold Bounds at hb
  unfold SliceRef.read
  simp only [hh]
  rw [if_pos (by omega)]
  congr 1
  rw [List.drop_take, Nat.add_sub_cancel_left]
  have e : s.win.take tok.length = (s.buf.drop s.start).take tok.length := by
    rw [win, List.take_take, Nat.min_eq_left (by omega)]
  rw [← e]
  exact prefix_take h

theorem heap_last (s : Scanner σ) : s.heap[s.old.length]? = some s.buf := by
  rw [heap, List.getElem?_append_right (Nat.le_refl _), Nat.sub_self]
  rfl

theorem loopRef_read {split : SplitFunc} (hsp : GoodSplit split)
    (hpre : ∀ d b r tok, split d b = .ok r → r.token = some tok → tok <+: d)
    {read : Reader σ} {M C : Nat} (fuel : Nat) : ∀ {s s' : Scanner σ} {ref : SliceRef}, Sane M C s →
    s.loopRef split read M fuel = .ok (true, s', ref) → ref.read s'.heap = .ok (s'.Bytes.getD []) := by
  induction fuel with
  | zero => intro s s' ref _ h; cases h
  | succ fuel ih =>
    intro s s' ref hs hx
    obtain ⟨x, t, hr, ht, -⟩ := round_sane hsp (read := read) hs
    rw [loopRef] at hx
    simp only [bind, Except.bind, hr] at hx
    cases x with
    | none => exact ih ht hx
    | some b =>
      cases hx
      obtain ⟨tok, h1, h2, h3, h4, -⟩ := round_token hsp hpre hs hr
      rw [h1, Bytes, h1]
      refine read_of_win hs.bounds h2 ?_
      rw [heap_last, h4]

theorem ScanRef_read {split : SplitFunc} (hsp : GoodSplit split)
    (hpre : ∀ d b r tok, split d b = .ok r → r.token = some tok → tok <+: d)
    {read : Reader σ} {M C : Nat} {s s' : Scanner σ} {ref : SliceRef} (hs : Sane M C s)
    (hx : s.ScanRef split read M = .ok (true, s', ref)) : ref.read s'.heap = .ok (s'.Bytes.getD []) := by
  unfold ScanRef at hx
  rw [hs.notDone] at hx
  exact loopRef_read hsp hpre _ hs hx

/-- `SliceRef.sub` -/
theorem sub_read {heap : List (List UInt8)} {r : SliceRef} {raw : List UInt8} (h : r.read heap = .ok raw) {off len : Nat}
    (hl : off + len ≤ raw.length) : (r.sub off len).read heap = .ok ((raw.drop off).take len) := by
  unfold SliceRef.read at h ⊢
  unfold SliceRef.sub
  simp only
  cases hb : heap[r.buf]? with
  | none => rw [hb] at h; cases h
  | some b =>
    rw [hb] at h
    simp only at h ⊢
    by_cases hc : r.lo ≤ r.hi ∧ r.hi ≤ b.length
    · rw [if_pos hc] at h
      cases h
      rw [List.length_drop, List.length_take] at hl
      rw [if_pos (by omega)]
      congr 1
      rw [List.drop_drop, List.drop_take, List.drop_take, List.take_take]
      congr 1
      omega
    · rw [if_neg hc] at h; cases h

/-! ## Entries -/

/-- The entry with the slice, and the entry with the value. -/
inductive SameEntry (heap : List (List UInt8)) : Except ParseErr EntryRef → Except ParseErr Entry → Prop
  | error (e : ParseErr) : SameEntry heap (.error e) (.error e)
  | ok (x : EntryRef) (e : Entry) : x.read heap = .ok e → SameEntry heap (.ok x) (.ok e)

theorem NextEntryRef_spec (read : Reader σ) {C : Nat} (fuel : Nat) : ∀ {s : Scanner σ}, Sane maxScanTokenSize C s →
    ((∃ e, NextEntry read fuel s = .error e ∧ NextEntryRef read fuel s = .error e) ∨
    ∃ v x s', NextEntry read fuel s = .ok (v, s') ∧ NextEntryRef read fuel s = .ok (x, s') ∧ SameEntry s'.heap x v ∧
      Sane maxScanTokenSize C s') := by
  induction fuel with
  | zero => intro s _; exact Or.inl ⟨_, rfl, rfl⟩
  | succ fuel ih =>
    intro s hs
    obtain ⟨b0, t0, hx, ht⟩ := Scan_sane goodSplit_lines (read := read) hs
    have he := ScanRef_erase ScanLines read maxScanTokenSize s
    rw [hx] at he
    cases hy : s.ScanRef ScanLines read maxScanTokenSize with
    | error e => rw [hy] at he; cases he
    | ok y =>
      obtain ⟨b, t, ref⟩ := y
      rw [hy] at he
      simp only [Except.map, Except.ok.injEq, Prod.mk.injEq] at he
      obtain ⟨rfl, rfl⟩ := he
      rw [NextEntry, NextEntryRef]
      simp only [bind, Except.bind, hx, hy]
      cases b with
      | false => exact Or.inr ⟨_, _, _, rfl, rfl, .error _, ht⟩
      | true =>
        have hrd := ScanRef_read goodSplit_lines (fun d b r tok => scanLines_prefix) hs hy
        simp only [hrd]
        cases hp : parseLine (t.Bytes.getD []) with
        | none => exact ih ht
        | some r =>
          cases r with
          | error e => exact Or.inr ⟨_, _, _, rfl, rfl, .error _, ht⟩
          | ok e =>
            obtain ⟨f1, f2⟩ := fieldsSpan_spec hp
            refine Or.inr ⟨_, _, _, rfl, rfl, .ok _ _ ?_, ht⟩
            unfold EntryRef.read
            simp only [bind, Except.bind, sub_read hrd f1, f2]

/-- A loop that uses each entry before the next call. -/
theorem useEntries_spec {α : Type} (read : Reader σ) (use : Entry → α) {C : Nat} (fuel : Nat) : ∀ {s : Scanner σ},
    Sane maxScanTokenSize C s →
    useEntries read use fuel s = (allEntries read fuel s).map (fun x => (x.1.map use, x.2)) := by
  induction fuel with
  | zero => intro s _; rfl
  | succ fuel ih =>
    intro s hs
    rw [useEntries, allEntries]
    rcases NextEntryRef_spec read (fuel + 1) hs with ⟨e, h1, h2⟩ | ⟨v, x, s', h1, h2, h3, h4⟩
    · simp only [bind, Except.bind, h1, h2]
      rfl
    · simp only [bind, Except.bind, h1, h2]
      cases h3 with
      | error e => rfl
      | ok x e hr =>
        simp only [hr]
        rw [ih h4]
        cases allEntries read fuel s' <;> rfl

/-! ## Kept entries -/

variable {read : Reader σ} {E : IOErr}

/-- The token, as a slice of the input. -/
def RefAt (D tok : List UInt8) (ref : SliceRef) : Prop :=
  ∃ lo, ref = ⟨1, lo, lo + tok.length⟩ ∧ lo + tok.length ≤ D.length ∧ (D.drop lo).take tok.length = tok

theorem refAt_final {D tok : List UInt8} {ref : SliceRef} {s : Scanner σ} (h : RefAt D tok ref) (hf : Final D s) :
    ref.read s.heap = .ok tok := by
  obtain ⟨lo, rfl, h1, h2⟩ := h
  obtain ⟨f1, f2, f3⟩ := hf
  have hl := congrArg List.length f3
  rw [List.length_take] at hl
  unfold SliceRef.read heap
  rw [f1]
  show (if lo ≤ lo + tok.length ∧ lo + tok.length ≤ s.buf.length then
    Except.ok ((s.buf.take (lo + tok.length)).drop lo) else _) = _
  rw [if_pos (by omega)]
  congr 1
  have e : s.buf.take (lo + tok.length) = D.take (lo + tok.length) := by
    rw [← f3, List.take_take, Nat.min_eq_left h1]
  rw [e, List.drop_take, Nat.add_sub_cancel_left]
  exact h2

theorem round_keptRef {split : SplitFunc} (hsp : GoodSplit split)
    (hpre : ∀ d b r tok, split d b = .ok r → r.token = some tok → tok <+: d)
    (hE : E ≠ .badReadCount) {D : List UInt8} (hn : D.length ≤ 2049) {M : Nat} (hM : 4096 ≤ M)
    {s s' : Scanner σ} {x : Option Bool} (h : Kept read E D s) (hm : s.round split read M = .ok (x, s')) :
    (x = none → Kept read E D s') ∧ (x = some true → Kept read E D s' ∧ ∃ tok, s'.token = some tok ∧
      RefAt D tok ⟨s'.old.length, s.start, s.start + tok.length⟩) ∧ (x = some false → Final D s') := by
  have keep : ∀ {s : Scanner σ} (tok : Option (List UInt8)) (n : Nat), Kept read E D s →
      Kept read E D ({ s with token := tok, empties := n } : Scanner σ) := by
    intro s tok n h
    cases h with
    | fresh a b c d e f => exact .fresh a b c d e f
    | run D' a b c d e f g => exact .run D' a b c d e f g
    | reset a b c d e f => exact .reset a b c d e f
  unfold round at hm
  split at hm
  · rw [window_eq h.bounds] at hm
    obtain ⟨r, hr, hre, hra, hrt⟩ := hsp.total s.win (s.err != none)
    have hwl := win_length h.bounds
    simp only [bind, Except.bind, hr, hre] at hm
    rw [if_neg (by omega)] at hm
    cases ht : r.token with
    | some tok =>
      have hadv : 0 < r.advance := by
        rcases Nat.eq_zero_or_pos r.advance with h0 | h0
        · rw [hrt.mpr h0] at ht; cases ht
        · exact h0
      simp only [ht] at hm
      rw [if_pos (Or.inr hadv)] at hm
      cases hm
      refine ⟨by simp, fun _ => ?_, by simp⟩
      cases h with
      | fresh _ _ a b _ _ => omega
      | reset _ _ _ a b _ => omega
      | run D' a b c d e f g =>
        have hl := congrArg List.length e
        rw [List.length_append, List.length_take, a, Nat.min_eq_left d] at hl
        refine ⟨.run D' a b (by show s.start + r.advance ≤ s.stop; omega) d e f g, tok, rfl, s.start, ?_, ?_, ?_⟩
        · show (⟨s.old.length, s.start, s.start + tok.length⟩ : SliceRef) = _
          rw [b]; rfl
        · have := (hpre _ _ _ _ hr ht).length_le
          omega
        · have hp := hpre _ _ _ _ hr ht
          have hpl := hp.length_le
          have hw : s.win <+: D.drop s.start := by
            rw [← e, List.drop_append_of_le_length (by rw [List.length_take]; omega), List.drop_take]
            exact List.prefix_append _ _
          exact prefix_take (hp.trans hw)
    | none =>
      have h0 := hrt.mp ht
      simp only [ht, h0, Nat.add_zero] at hm
      obtain ⟨a, b, c⟩ := more_kept hE hn hM (keep none s.empties h) hm
      exact ⟨b, fun hx => absurd hx a, c⟩
  · obtain ⟨a, b, c⟩ := more_kept hE hn hM h hm
    exact ⟨b, fun hx => absurd hx a, c⟩

theorem loopRef_kept {split : SplitFunc} (hsp : GoodSplit split)
    (hpre : ∀ d b r tok, split d b = .ok r → r.token = some tok → tok <+: d)
    (hE : E ≠ .badReadCount) {D : List UInt8} (hn : D.length ≤ 2049) {M : Nat} (hM : 4096 ≤ M) (fuel : Nat) :
    ∀ {s s' : Scanner σ} {b : Bool} {ref : SliceRef}, Kept read E D s → s.loopRef split read M fuel = .ok (b, s', ref) →
    (b = true → Kept read E D s' ∧ RefAt D (s'.Bytes.getD []) ref) ∧ (b = false → Final D s') := by
  induction fuel with
  | zero => intro s s' b ref _ h; cases h
  | succ fuel ih =>
    intro s s' b ref h hx
    unfold loopRef at hx
    simp only [bind, Except.bind] at hx
    cases h1 : s.round split read M with
    | error e => rw [h1] at hx; cases hx
    | ok y =>
      obtain ⟨x, s1⟩ := y
      rw [h1] at hx
      obtain ⟨g1, g2, g3⟩ := round_keptRef hsp hpre hE hn hM h h1
      cases x with
      | some b' =>
        cases hx
        refine ⟨fun hb => ?_, fun hb => g3 (by rw [hb])⟩
        obtain ⟨k1, tok, k2, k3⟩ := g2 (by rw [hb])
        refine ⟨k1, ?_⟩
        rw [Bytes, k2]
        exact k3
      | none => exact ih (g1 rfl) hx

/-- An entry that can still be read at the end. -/
def EntryAt (D : List UInt8) (x : EntryRef) (e : Entry) : Prop :=
  x.Start = e.Start ∧ x.End = e.End ∧ RefAt D e.Fields x.Fields

theorem entryAt_final {D : List UInt8} {x : EntryRef} {e : Entry} {s : Scanner σ} (h : EntryAt D x e) (hf : Final D s) :
    x.read s.heap = .ok e := by
  unfold EntryRef.read
  simp only [bind, Except.bind, refAt_final h.2.2 hf, h.1, h.2.1]

theorem refAt_sub {D raw : List UInt8} {ref : SliceRef} (h : RefAt D raw ref) {off len : Nat} (hl : off + len ≤ raw.length) :
    RefAt D ((raw.drop off).take len) (ref.sub off len) := by
  obtain ⟨lo, rfl, h1, h2⟩ := h
  have e : ((raw.drop off).take len).length = len := by rw [List.length_take, List.length_drop]; omega
  refine ⟨lo + off, ?_, by omega, ?_⟩
  · rw [e]; rfl
  · rw [e, ← h2, List.drop_take, List.drop_drop, List.take_take]
    congr 1
    omega

theorem NextEntryRef_kept (hE : E ≠ .badReadCount) {D : List UInt8} (hn : D.length ≤ 2049) {C : Nat} (fuel : Nat) :
    ∀ {s s' : Scanner σ} {v : Except ParseErr Entry}, Kept read E D s → Sane maxScanTokenSize C s →
    NextEntry read fuel s = .ok (v, s') →
    ∃ x, NextEntryRef read fuel s = .ok (x, s') ∧ Sane maxScanTokenSize C s' ∧
      ((∃ F, v = .error (.io F) ∧ x = .error (.io F) ∧ Final D s') ∨
       (∃ F, v = .error F ∧ (∀ G, F ≠ .io G) ∧ x = .error F) ∨
       ∃ r e, v = .ok e ∧ x = .ok r ∧ EntryAt D r e ∧ Kept read E D s') := by
  induction fuel with
  | zero => intro s s' v _ _ h; cases h
  | succ fuel ih =>
    intro s s' v hk hs h
    obtain ⟨b0, t0, hx, ht⟩ := Scan_sane goodSplit_lines (read := read) hs
    have he := ScanRef_erase ScanLines read maxScanTokenSize s
    rw [hx] at he
    cases hy : s.ScanRef ScanLines read maxScanTokenSize with
    | error e => rw [hy] at he; cases he
    | ok y =>
      obtain ⟨b, t, ref⟩ := y
      rw [hy] at he
      simp only [Except.map, Except.ok.injEq, Prod.mk.injEq] at he
      obtain ⟨rfl, rfl⟩ := he
      have hl := hy
      unfold ScanRef at hl
      rw [hs.notDone] at hl
      obtain ⟨g1, g2⟩ := loopRef_kept goodSplit_lines (fun d b r tok => scanLines_prefix) hE hn (by decide) _ hk hl
      rw [NextEntry] at h
      rw [NextEntryRef]
      simp only [bind, Except.bind, hx, hy] at h ⊢
      cases b with
      | false =>
        cases h
        refine ⟨_, rfl, ht, Or.inl ?_⟩
        unfold endOfLines
        split <;> exact ⟨_, rfl, rfl, g2 rfl⟩
      | true =>
        obtain ⟨k1, k2⟩ := g1 rfl
        have hrd := ScanRef_read goodSplit_lines (fun d b r tok => scanLines_prefix) hs hy
        simp only [hrd] at h ⊢
        cases hp : parseLine (t.Bytes.getD []) with
        | none =>
          rw [hp] at h
          exact ih k1 ht h
        | some r =>
          rw [hp] at h
          cases r with
          | error e =>
            cases h
            refine ⟨_, rfl, ht, Or.inr (Or.inl ⟨e, rfl, ?_, rfl⟩)⟩
            intro G hG
            subst hG
            revert hp
            unfold parseLine
            simp only
            split
            · intro h; cases h
            · split
              · intro h; cases h
              · split
                · split <;> (intro h; cases h)
                · intro h; cases h
          | ok e =>
            cases h
            obtain ⟨f1, f2⟩ := fieldsSpan_spec hp
            refine ⟨_, rfl, ht, Or.inr (Or.inr ⟨_, e, rfl, rfl, ⟨rfl, rfl, ?_⟩, k1⟩)⟩
            have := refAt_sub k2 f1
            rw [f2] at this
            exact this

theorem keepEntries_kept (hE : E ≠ .badReadCount) {D : List UInt8} (hn : D.length ≤ 2049) {C : Nat} (fuel : Nat) :
    ∀ {s : Scanner σ} {es : List Entry} {F : IOErr}, Kept read E D s → Sane maxScanTokenSize C s →
    allEntries read fuel s = .ok (es, .io F) →
    ∃ xs s', keepEntries read fuel s = .ok (xs, .io F, s') ∧ Final D s' ∧ xs.mapM (EntryRef.read s'.heap) = .ok es := by
  induction fuel with
  | zero => intro s es F _ _ h; cases h
  | succ fuel ih =>
    intro s es F hk hs h
    rw [allEntries] at h
    rw [keepEntries]
    cases hv : NextEntry read (fuel + 1) s with
    | error e => simp only [bind, Except.bind, hv] at h; cases h
    | ok y =>
      obtain ⟨v, s1⟩ := y
      obtain ⟨x, hx, hs1, hc⟩ := NextEntryRef_kept hE hn (fuel + 1) hk hs hv
      simp only [bind, Except.bind, hv] at h
      simp only [bind, Except.bind, hx]
      rcases hc with ⟨G, rfl, rfl, hfin⟩ | ⟨G, rfl, hG, rfl⟩ | ⟨r, e, rfl, rfl, hat, hk1⟩
      · cases h
        exact ⟨[], s1, rfl, hfin, rfl⟩
      · cases h
        exact absurd rfl (hG F)
      · simp only at h
        cases hy : allEntries read fuel s1 with
        | error e' => rw [hy] at h; cases h
        | ok z =>
          obtain ⟨es1, F1⟩ := z
          rw [hy] at h
          cases h
          obtain ⟨xs, s', i1, i2, i3⟩ := ih hk1 hs1 hy
          refine ⟨r :: xs, s', ?_, i2, ?_⟩
          · simp only [i1]
          · exact mapM_cons _ _ _ (entryAt_final hat i2) i3

end
end Textseg
