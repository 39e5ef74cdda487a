import Verif.Proofs.BufioScanner
import Verif.Props.Split
import Verif.Proofs.Disjoint
/-!
# Streaming with ScanGraphemeClusters
-/

namespace Textseg
open Spec Props

theorem goodSplit_grapheme : GoodSplit ScanGraphemeClusters where
  total data atEOF := by
    obtain ⟨r, hr, he⟩ := C01_never_panics_never_fails data atEOF
    obtain ⟨h1, h2, _⟩ := C02_token_is_consumed_prefix data atEOF r hr
    exact ⟨r, hr, he, h1, h2⟩
  final data r h ht more atEOF := by
    match hr : r.token, ht with
    | some tok, _ => exact C09_decided_token_is_final data r tok h hr more atEOF
  eof data hd := by
    obtain ⟨r, tok, hr, ht, _⟩ := C03_progress_at_eof data hd
    exact ⟨r, hr, by rw [ht]; simp⟩

theorem indexByte_bound {c : UInt8} {data : List UInt8} {i : Nat} (h : indexByte c data = some i) : i < data.length := by
  induction data generalizing i with
  | nil => cases h
  | cons b t ih =>
    unfold indexByte at h
    split at h
    · cases h; simp
    · rw [Option.map_eq_some_iff] at h
      obtain ⟨j, hj, rfl⟩ := h
      have := ih hj
      simp only [List.length_cons]; omega

theorem indexByte_append {c : UInt8} {data : List UInt8} {i : Nat} (h : indexByte c data = some i) (more : List UInt8) :
    indexByte c (data ++ more) = some i := by
  induction data generalizing i with
  | nil => cases h
  | cons b t ih =>
    rw [List.cons_append]
    unfold indexByte at h ⊢
    split at h
    · rename_i hb; rw [if_pos hb]; exact h
    · rename_i hb
      rw [Option.map_eq_some_iff] at h
      obtain ⟨j, hj, rfl⟩ := h
      rw [if_neg hb, ih hj]; rfl

theorem goodSplit_lines : GoodSplit ScanLines where
  total data atEOF := by
    unfold ScanLines
    split
    · exact ⟨_, rfl, rfl, Nat.zero_le _, by simp [needMore]⟩
    · rename_i h
      cases hi : indexByte 0x0A data with
      | some i => exact ⟨_, rfl, rfl, indexByte_bound hi, by simp⟩
      | none =>
        cases atEOF with
        | true =>
          refine ⟨_, rfl, rfl, Nat.le_refl _, ?_⟩
          simp only [true_and] at h
          simp [h]
        | false => exact ⟨_, rfl, rfl, Nat.zero_le _, by simp [needMore]⟩
  final data r h ht more atEOF := by
    unfold ScanLines at h ⊢
    simp only [Bool.false_eq_true, false_and, if_false] at h
    cases hi : indexByte 0x0A data with
    | some i =>
      rw [hi] at h
      have hb := indexByte_bound hi
      rw [if_neg (by rw [List.length_append]; omega), indexByte_append hi]
      simp only at h ⊢
      rw [List.take_append_of_le_length (by omega)]
      exact h
    | none =>
      rw [hi] at h
      simp only at h
      cases h
      exact absurd rfl ht
  eof data hd := by
    unfold ScanLines
    rw [if_neg (by intro h; exact hd (List.eq_nil_of_length_eq_zero h.2))]
    cases hi : indexByte 0x0A data with
    | some i => exact ⟨_, rfl, by simp⟩
    | none => exact ⟨_, rfl, by simp⟩

/-- A cluster that cannot be decided from `p` has at least `p.length - 3` bytes in the end. -/
theorem grow_undecided {R : Text} {p : List UInt8} {r : Option Nat} (h : Grow false R p r) (hr : r = none) (q : List UInt8) :
    ∃ k, Grow true R (p ++ q) (some k) ∧ p.length ≤ k + 3 := by
  induction h with
  | nil R =>
    obtain ⟨r, h⟩ := Grow.total true R q
    match r, h.eof, h with
    | some k, _, h => exact ⟨k, h, by simp⟩
  | bad => cases hr
  | split => cases hr
  | incomplete R b t n h1 h2 =>
    obtain ⟨r, h⟩ := Grow.total true R (b :: t ++ q)
    have := announced_le h1
    match r, h.eof, h with
    | some k, _, h => exact ⟨k, h, by simp only [List.length_cons]; omega⟩
  | more R bs rest r h1 hb hg ih =>
    obtain ⟨k, h2, h3⟩ := ih (by simpa using hr)
    refine ⟨bs.length + k, ?_, by rw [List.length_append]; omega⟩
    rw [List.append_assoc]
    exact .more R bs (rest ++ q) (some k) h1 hb h2

theorem scanRes_undecided {p : List UInt8} (h : ScanRes false p none) (q : List UInt8) (hpq : p ++ q ≠ []) :
    ∃ k, ScanRes true (p ++ q) (some k) ∧ p.length ≤ k + 3 := by
  generalize hr : none = r at h
  cases h with
  | nil =>
    obtain ⟨r, h⟩ := ScanRes.total true q
    match r, h.eof hpq, h with
    | some k, _, h => exact ⟨k, h, by simp⟩
  | bad => cases hr
  | incomplete b t n h1 h2 =>
    obtain ⟨r, h⟩ := ScanRes.total true (b :: t ++ q)
    have := announced_le h1
    match r, h.eof hpq, h with
    | some k, _, h => exact ⟨k, h, by simp only [List.length_cons]; omega⟩
  | seq bs rest r h1 hg =>
    obtain ⟨k, h2, h3⟩ := grow_undecided hg (by simpa using hr.symm) q
    refine ⟨bs.length + k, ?_, by rw [List.length_append]; omega⟩
    rw [List.append_assoc]
    exact .seq bs (rest ++ q) (some k) h1 h2

/-- Overlong data begins with a long token. -/
theorem overlong_token {C : Nat} {data : List UInt8} (h : Overlong ScanGraphemeClusters C data) {r : SplitResult}
    (hd : data ≠ []) (hr : ScanGraphemeClusters data true = .ok r) : C ≤ r.advance + 3 := by
  obtain ⟨h1, r', h2, h3⟩ := h
  obtain ⟨o, ho⟩ := ScanRes.total false (data.take C)
  rw [scan_eq ho] at h2
  cases h2
  match o, ho, h3 with
  | none, ho, _ =>
    obtain ⟨k, hk, hl⟩ := scanRes_undecided ho (data.drop C) (by rw [List.take_append_drop]; exact hd)
    rw [List.take_append_drop] at hk
    rw [scan_eq hk] at hr
    cases hr
    rw [List.length_take] at hl
    show C ≤ k + 3
    omega

theorem grow_decided_lt {R : Text} {p : List UInt8} {r : Option Nat} (h : Grow false R p r) :
    ∀ k, r = some k → k < p.length := by
  induction h with
  | nil R => intro k h; cases h
  | bad R p hp => intro k h; cases h; exact List.length_pos_iff.mpr hp
  | split R bs rest h1 =>
    intro k h; cases h
    have := h1.length_pos
    rw [List.length_append]; omega
  | incomplete R b t n h1 h2 => intro k h; cases h
  | more R bs rest r h1 hb hg ih =>
    intro k h
    rw [Option.map_eq_some_iff] at h
    obtain ⟨j, hj, rfl⟩ := h
    have := ih j hj
    rw [List.length_append]; omega

theorem scanRes_decided_lt {p : List UInt8} {k : Nat} (h : ScanRes false p (some k)) (hp : 2 ≤ p.length) : k < p.length := by
  generalize hr : some k = r at h
  cases h with
  | nil => cases hr
  | bad => cases hr; omega
  | incomplete b t n h1 h2 => cases hr
  | seq bs rest r h1 hg =>
    obtain ⟨j, hj, rfl⟩ := Option.map_eq_some_iff.mp hr.symm
    have := grow_decided_lt hg j hj
    rw [List.length_append]; omega

/-- Data that begins with a token of at least `C` bytes is overlong. -/
theorem overlong_of_token {C : Nat} {data : List UInt8} {r : SplitResult}
    (hr : ScanGraphemeClusters data true = .ok r) (h2C : 2 ≤ C) (hC : C ≤ r.advance) : Overlong ScanGraphemeClusters C data := by
  have hlen := (C02_token_is_consumed_prefix data true r hr).1
  refine ⟨by omega, ?_⟩
  obtain ⟨r', hr'⟩ := ScanRes.total false (data.take C)
  refine ⟨_, scan_eq hr', ?_⟩
  match r', hr' with
  | none, _ => rfl
  | some k, h =>
    exfalso
    have h1 := h.append true (data.drop C)
    rw [List.take_append_drop] at h1
    rw [scan_eq h1] at hr
    cases hr
    have hC : C ≤ k := hC
    have h2 := (h.bounds k rfl).2
    rw [List.length_take] at h2
    have hk : k = (data.take C).length := by rw [List.length_take]; omega
    have := scanRes_decided_lt h (by rw [List.length_take]; omega)
    omega

/-! ## The tokens of the whole input -/

theorem splitsTo_total {split : SplitFunc} (hsp : GoodSplit split) (data : List UInt8) : ∃ toks, SplitsTo split data toks := by
  induction h : data.length using Nat.strongRecOn generalizing data with
  | ind n ih =>
    by_cases hd : data = []
    · exact ⟨[], hd ▸ .nil⟩
    · obtain ⟨r, hr, ht⟩ := hsp.eof data hd
      obtain ⟨r', hr', he, hl, ha⟩ := hsp.total data true
      rw [hr] at hr'; cases hr'
      match hr' : r.token, ht with
      | some tok, _ =>
        have h0 : r.advance ≠ 0 := fun h0 => by rw [ha.mpr h0] at hr'; cases hr'
        have := List.length_pos_iff.mpr hd
        obtain ⟨toks, h'⟩ := ih (data.drop r.advance).length (by rw [List.length_drop]; omega) _ rfl
        exact ⟨_, .cons data r tok toks hd hr hr' he h'⟩

theorem splitsTo_unique {split : SplitFunc} {data : List UInt8} {t t' : List (List UInt8)} (h : SplitsTo split data t)
    (h' : SplitsTo split data t') : t = t' := by
  induction h generalizing t' with
  | nil =>
    cases h' with
    | nil => rfl
    | cons _ _ _ _ hd => exact absurd rfl hd
  | cons data r tok toks h1 h2 h3 h4 h5 ih =>
    cases h' with
    | nil => exact absurd rfl h1
    | cons _ r' tok' toks' g1 g2 g3 g4 g5 =>
      rw [h2] at g2; cases g2
      rw [h3] at g3; cases g3
      rw [ih g5]

theorem splitsTo_loop {data : List UInt8} {toks : List (List UInt8)} (h : SplitsTo ScanGraphemeClusters data toks) :
    ∀ fuel, data.length < fuel → allTokensLoop fuel data = .ok toks := by
  induction h with
  | nil => intro fuel hf; match fuel, hf with | fuel + 1, _ => rfl
  | cons data r tok toks h1 h2 h3 h4 h5 ih =>
    intro fuel hf
    match fuel, hf with
    | fuel + 1, hf =>
      have hlen := List.length_pos_iff.mpr h1
      obtain ⟨a1, a2, a3⟩ := C02_token_is_consumed_prefix data true r h2
      have h0 : r.advance ≠ 0 := fun h0 => by rw [a2.mpr h0] at h3; cases h3
      have e : goSliceFrom data r.advance = .ok (data.drop r.advance) := if_pos a1
      have hne : (data.length == 0) = false := by rw [beq_eq_false_iff_ne]; omega
      rw [allTokensLoop]
      simp only [hne, Bool.false_eq_true, if_false, h2, bind, Except.bind, h3, h4, e]
      rw [ih fuel (by rw [List.length_drop]; omega)]

theorem splitsTo_iff_tokens {data : List UInt8} {toks : List (List UInt8)} :
    SplitsTo ScanGraphemeClusters data toks ↔ tokens data = .ok toks := by
  constructor
  · intro h; exact splitsTo_loop h _ (by omega)
  · intro h
    obtain ⟨t, ht⟩ := splitsTo_total goodSplit_grapheme data
    have := splitsTo_loop ht (data.length + 1) (by omega)
    rw [tokens, this] at h
    cases h
    exact ht

/-- The rest of the data before each token. -/
theorem splitsTo_drop {data : List UInt8} {toks : List (List UInt8)} (h : SplitsTo ScanGraphemeClusters data toks) :
    toks.flatten = data := by
  induction h with
  | nil => rfl
  | cons data r tok toks h1 h2 h3 h4 h5 ih =>
    rw [List.flatten_cons, ih, (C02_token_is_consumed_prefix data true r h2).2.2 tok h3, List.take_append_drop]

/-- The result of a Scanner in terms of the tokens of the whole input. -/
theorem streams_cases {C : Nat} (hC : 0 < C) {L S : Prop} {E F : IOErr} {data : List UInt8} {toks all : List (List UInt8)}
    (h : Streams ScanGraphemeClusters C L S E data toks F) (ha : SplitsTo ScanGraphemeClusters data all) :
    (toks = all ∧ F = E ∧ ∀ k, Overlong ScanGraphemeClusters C (all.drop k).flatten → L ∧ (all.drop k).flatten.length = C) ∨
    (∃ k, toks = all.take k ∧ F = .tooLong ∧ Overlong ScanGraphemeClusters C (all.drop k).flatten ∧
      (S ∨ C < (all.drop k).flatten.length) ∧
      ∀ j, j < k → ¬ Overlong ScanGraphemeClusters C (all.drop j).flatten) := by
  induction h generalizing all with
  | done =>
    cases ha with
    | nil =>
      refine Or.inl ⟨rfl, rfl, ?_⟩
      rintro k ⟨h, _⟩
      simp at h; omega
    | cons _ _ _ _ hd => exact absurd rfl hd
  | tooLong data h hs =>
    refine Or.inr ⟨0, rfl, rfl, ?_, ?_, fun j hj => absurd hj (by omega)⟩
    · rw [List.drop_zero, splitsTo_drop ha]; exact h
    · rw [List.drop_zero, splitsTo_drop ha]; exact hs
  | token data r tok toks F h1 h2 h3 h4 h5 h6 ih =>
    have hfl := splitsTo_drop ha
    cases ha with
    | nil => exact absurd rfl h1
    | cons _ r' tok' toks' g1 g2 g3 g4 g5 =>
      rw [h3] at g2; cases g2
      rw [h4] at g3; cases g3
      rcases ih g5 with ⟨i1, i2, i3⟩ | ⟨k, i1, i2, i3, i5, i4⟩
      · refine Or.inl ⟨by rw [i1], i2, ?_⟩
        intro k
        cases k with
        | zero => rw [List.drop_zero, hfl]; exact h2
        | succ k => exact i3 k
      · refine Or.inr ⟨k + 1, by rw [i1]; rfl, i2, i3, i5, ?_⟩
        intro j hj
        cases j with
        | zero =>
          rw [List.drop_zero, hfl]
          intro ho
          -- a later place would have to be as long as this one
          have hl := (h2 ho).2
          have h0 : r.advance ≠ 0 := fun h0 => by
            rw [(C02_token_is_consumed_prefix data true r h3).2.1.mpr h0] at h4; cases h4
          have h3 := i3.1
          have e := splitsTo_drop g5
          have : (toks'.drop k).flatten.length ≤ toks'.flatten.length := by
            have := congrArg List.length (congrArg List.flatten (List.take_append_drop k toks'))
            rw [List.flatten_append, List.length_append] at this
            omega
          rw [e, List.length_drop] at this
          omega
        | succ j => exact i4 j (by omega)
/-- The first token of the rest of the data. -/
theorem first_token' {data : List UInt8} {toks : List (List UInt8)} (ht : tokens data = .ok toks) (k : Nat)
    (hk : (toks.drop k).flatten ≠ []) :
    ∃ r t, ScanGraphemeClusters (toks.drop k).flatten true = .ok r ∧ t ∈ toks ∧ t.length = r.advance ∧
      (toks.drop k).head? = some t := by
  have h := splitsTo_iff_tokens.mpr ht
  clear ht
  induction h generalizing k with
  | nil => simp at hk
  | cons data r tok toks h1 h2 h3 h4 h5 ih =>
    cases k with
    | zero =>
      have := splitsTo_drop (.cons data r tok toks h1 h2 h3 h4 h5)
      rw [List.drop_zero, this]
      obtain ⟨a1, _, a3⟩ := C02_token_is_consumed_prefix data true r h2
      exact ⟨r, tok, h2, by simp, by rw [a3 tok h3, List.length_take]; omega, rfl⟩
    | succ k =>
      rw [List.drop_succ_cons] at hk ⊢
      obtain ⟨r', t, h6, h7, h8, h9⟩ := ih k hk
      exact ⟨r', t, h6, List.mem_cons_of_mem _ h7, h8, h9⟩

theorem first_token {data : List UInt8} {toks : List (List UInt8)} (ht : tokens data = .ok toks) (k : Nat)
    (hk : (toks.drop k).flatten ≠ []) :
    ∃ r t, ScanGraphemeClusters (toks.drop k).flatten true = .ok r ∧ t ∈ toks ∧ t.length = r.advance := by
  obtain ⟨r, t, h1, h2, h3, _⟩ := first_token' ht k hk
  exact ⟨r, t, h1, h2, h3⟩

end Textseg
