import Verif.Model.StreamCost
import Verif.Props.Cost
import Verif.Proofs.Streaming
/-!
# The cost of streaming
-/

namespace Textseg
open Spec Props

namespace Scanner
variable {σ : Type}

/-! ## Forgetting the counters -/

theorem readLoopC_fst (read : Reader σ) (left : Nat) : ∀ s, (readLoopC read left s).1 = readLoop read left s := by
  induction left with
  | zero =>
    intro s
    rw [readLoopC, readLoop]
    rcases readOnce read s with ⟨b, s'⟩
    cases b <;> rfl
  | succ left ih =>
    intro s
    rw [readLoopC, readLoop]
    rcases readOnce read s with ⟨b, s'⟩
    cases b
    · exact ih s'
    · rfl

theorem readLoopC_pos (read : Reader σ) (left : Nat) (s : Scanner σ) : 1 ≤ (readLoopC read left s).2 := by
  cases left <;> rw [readLoopC] <;> rcases readOnce read s with ⟨b, s'⟩ <;> cases b <;> simp

theorem moreC_erase (read : Reader σ) (M : Nat) (s : Scanner σ) :
    (moreC read M s).map (fun x => (x.1, x.2.1)) = more read M s := by
  unfold moreC more
  split
  · rfl
  · cases s.window with
    | error e => rfl
    | ok w =>
      simp only [bind, Except.bind]
      cases (s.shift w).grow M w with
      | none => rfl
      | some s' =>
        simp only [Except.map, readLoopC_fst]

theorem roundC_erase {split : SplitFunc} {splitC : SplitFuncC} (he : ∀ d e, (splitC d e).map (·.1) = split d e)
    (read : Reader σ) (M : Nat) (s : Scanner σ) :
    (roundC splitC read M s).map (fun x => (x.1, x.2.1)) = round split read M s := by
  unfold roundC round
  split
  · cases s.window with
    | error e => rfl
    | ok w =>
      simp only [bind, Except.bind]
      rw [← he]
      cases splitC w (s.err != none) with
      | error e => rfl
      | ok p =>
        obtain ⟨⟨adv, tok, er⟩, k⟩ := p
        simp only [Except.map]
        cases er with
        | some e =>
          simp only
          by_cases hf : e = "final token"
          · rw [if_pos hf, if_pos hf]
          · rw [if_neg hf, if_neg hf]
        | none =>
          simp only
          by_cases hc : s.stop - s.start < adv
          · rw [if_pos hc, if_pos hc]
          · rw [if_neg hc, if_neg hc]
            cases tok with
            | some t =>
              simp only
              by_cases h1 : s.err = none ∨ 0 < adv
              · rw [if_pos h1, if_pos h1]
              · rw [if_neg h1, if_neg h1]
                by_cases h2 : maxConsecutiveEmptyReads < s.empties + 1
                · rw [if_pos h2, if_pos h2]
                · rw [if_neg h2, if_neg h2]
            | none =>
              simp only
              rw [← moreC_erase]
              generalize ({ s with start := s.start + adv, token := none } : Scanner σ) = s1
              cases moreC read M s1 <;> rfl
  · rw [← moreC_erase]
    cases moreC read M s <;> rfl

theorem loopC_erase {split : SplitFunc} {splitC : SplitFuncC} (he : ∀ d e, (splitC d e).map (·.1) = split d e)
    (read : Reader σ) (M : Nat) (fuel : Nat) : ∀ s : Scanner σ,
    (loopC splitC read M fuel s).map (fun x => (x.1, x.2.1)) = loop split read M fuel s := by
  induction fuel with
  | zero => intro s; rfl
  | succ fuel ih =>
    intro s
    rw [loopC, loop, ← roundC_erase he]
    cases roundC splitC read M s with
    | error e => rfl
    | ok x =>
      obtain ⟨o, s', w⟩ := x
      simp only [bind, Except.bind, Except.map]
      cases o with
      | some b => rfl
      | none =>
        simp only
        rw [← ih]
        cases loopC splitC read M fuel s' <;> rfl

theorem ScanC_erase {split : SplitFunc} {splitC : SplitFuncC} (he : ∀ d e, (splitC d e).map (·.1) = split d e)
    (read : Reader σ) (M : Nat) (s : Scanner σ) :
    (s.ScanC splitC read M).map (fun x => (x.1, x.2.1)) = s.Scan split read M := by
  unfold ScanC Scan
  split
  · rfl
  · exact loopC_erase he read M _ s

theorem collectC_erase {split : SplitFunc} {splitC : SplitFuncC} (he : ∀ d e, (splitC d e).map (·.1) = split d e)
    (read : Reader σ) (M : Nat) (fuel : Nat) : ∀ s : Scanner σ,
    (collectC splitC read M fuel s).map (fun x => (x.1, x.2.1)) = collect split read M fuel s := by
  induction fuel with
  | zero => intro s; rfl
  | succ fuel ih =>
    intro s
    rw [collectC, collect, ← ScanC_erase he]
    cases s.ScanC splitC read M with
    | error e => rfl
    | ok x =>
      obtain ⟨b, s', w⟩ := x
      simp only [bind, Except.bind, Except.map]
      cases b with
      | false => rfl
      | true =>
        simp only
        rw [← ih]
        cases collectC splitC read M fuel s' <;> rfl

/-! ## What a round costs -/

theorem moreC_work {read : Reader σ} {M : Nat} {s s' : Scanner σ} {o : Option Bool} {n : Nat}
    (h : moreC read M s = .ok (o, s', n)) : (o = none → 1 ≤ n) ∧ (o ≠ none → n = 0 ∧ o = some false) := by
  unfold moreC at h
  split at h
  · cases h; simp
  · cases hw : s.window with
    | error e => rw [hw] at h; cases h
    | ok w =>
      rw [hw] at h
      simp only [bind, Except.bind] at h
      cases hg : (s.shift w).grow M w with
      | none => rw [hg] at h; cases h; simp
      | some t =>
        rw [hg] at h
        cases h
        exact ⟨fun _ => readLoopC_pos _ _ _, fun h => absurd rfl h⟩

/-- The three kinds of rounds. -/
inductive RoundWork (splitC : SplitFuncC) (read : Reader σ) (M : Nat) (s : Scanner σ) : Option Bool → Scanner σ → Work → Prop
  | idle (o : Option Bool) (s' : Scanner σ) (n : Nat) : s.win = [] → s.err = none → moreC read M s = .ok (o, s', n) →
      (o = none → 1 ≤ n) → (o ≠ none → n = 0 ∧ o = some false) → RoundWork splitC read M s o s' ⟨n, 0, 0⟩
  | token (s' : Scanner σ) (r : SplitResult) (k : Nat) : splitC s.win (s.err != none) = .ok (r, k) → r.token ≠ none →
      RoundWork splitC read M s (some true) s' ⟨0, 1, k⟩
  | wait (o : Option Bool) (s' : Scanner σ) (r : SplitResult) (k n : Nat) : splitC s.win (s.err != none) = .ok (r, k) →
      r.token = none → moreC read M { s with token := none } = .ok (o, s', n) →
      (o = none → 1 ≤ n) → (o ≠ none → n = 0 ∧ o = some false) → RoundWork splitC read M s o s' ⟨n, 1, k⟩

theorem roundC_work {splitC : SplitFuncC} {split : SplitFunc} (he : ∀ d e, (splitC d e).map (·.1) = split d e)
    (hsp : GoodSplit split) {read : Reader σ} {M : Nat} {s s' : Scanner σ} {o : Option Bool} {w : Work} (hb : s.Bounds)
    (h : roundC splitC read M s = .ok (o, s', w)) : RoundWork splitC read M s o s' w := by
  have hwl := win_length hb
  unfold roundC at h
  split at h
  · rw [window_eq hb] at h
    simp only [bind, Except.bind] at h
    cases hs : splitC s.win (s.err != none) with
    | error e => rw [hs] at h; cases h
    | ok p =>
      obtain ⟨r, k⟩ := p
      have hr : split s.win (s.err != none) = .ok r := by rw [← he, hs]; rfl
      obtain ⟨r', hr', h1, h2, h3⟩ := hsp.total s.win (s.err != none)
      rw [hr] at hr'
      cases hr'
      rw [hs] at h
      simp only [h1] at h
      rw [if_neg (by omega)] at h
      cases ht : r.token with
      | some t =>
        have h0 : 0 < r.advance := by
          rcases Nat.eq_zero_or_pos r.advance with h0 | h0
          · rw [h3.mpr h0] at ht; cases ht
          · exact h0
        rw [ht] at h
        simp only at h
        rw [if_pos (Or.inr h0)] at h
        cases h
        exact .token _ r k hs (by rw [ht]; simp)
      | none =>
        have h0 := h3.mp ht
        simp only [ht, h0, Nat.add_zero] at h
        cases hm : moreC read M { s with token := none } with
        | error e => rw [hm] at h; cases h
        | ok y =>
          obtain ⟨o', s'', n⟩ := y
          rw [hm] at h
          cases h
          obtain ⟨m1, m2⟩ := moreC_work hm
          exact .wait _ _ r k n hs ht hm m1 m2
  · next hc =>
    cases hm : moreC read M s with
    | error e => rw [hm] at h; cases h
    | ok y =>
      obtain ⟨o', s'', n⟩ := y
      rw [hm] at h
      cases h
      obtain ⟨m1, m2⟩ := moreC_work hm
      refine .idle _ _ n ?_ ?_ hm m1 m2
      · apply List.eq_nil_of_length_eq_zero
        have : ¬ s.start < s.stop := fun h => hc (Or.inl h)
        omega
      · exact Decidable.byContradiction fun h => hc (Or.inr h)

theorem scanC_of {data : List UInt8} {e : Bool} {r : SplitResult} {k : Nat} (h : ScanGraphemeClustersC data e = .ok (r, k)) :
    ScanGraphemeClusters data e = .ok r := by
  rw [← scanC_erase, h]; rfl

/-- A call that gives no token makes no more lookups than the next token has bytes, plus three. -/
theorem wait_lookups {read : Reader σ} {E : IOErr} {M C : Nat} {s : Scanner σ} {rest : List UInt8} (h : At read E M C s rest)
    {r : SplitResult} {k : Nat} (hs : ScanGraphemeClustersC s.win (s.err != none) = .ok (r, k)) (ht : r.token = none) :
    k ≤ s.win.length ∧ ∀ r', ScanGraphemeClusters rest true = .ok r' → rest ≠ [] → k ≤ r'.advance + 3 := by
  have h1 := (C39_lookups_per_call _ _ _ _ hs).1
  refine ⟨h1, fun r' hr' hne => ?_⟩
  have hr := scanC_of hs
  rcases h.alt with ⟨he, D, hD, _⟩ | ⟨he, hD, _⟩
  · rw [he] at hr
    have := overlong_token (C := s.win.length) (data := rest) ⟨by rw [← hD]; simp, r, by rw [← hD, List.take_left]; exact hr, ht⟩
      hne hr'
    omega
  · rw [he] at hr
    obtain ⟨q, hq, hq'⟩ := goodSplit_grapheme.eof s.win (by rw [hD]; exact hne)
    rw [show ((some E : Option IOErr) != none) = true by rfl, hq] at hr
    cases hr
    exact absurd ht hq'

/-- A call that gives a token makes no more lookups than the token has bytes, plus one. -/
theorem token_lookups {read : Reader σ} {E : IOErr} {M C : Nat} {s : Scanner σ} {rest : List UInt8} (h : At read E M C s rest)
    {r : SplitResult} {k : Nat} (hs : ScanGraphemeClustersC s.win (s.err != none) = .ok (r, k)) (ht : r.token ≠ none) :
    s.win ≠ [] ∧ ScanGraphemeClusters rest true = .ok r ∧ k ≤ r.advance + 1 := by
  have h1 := (C39_lookups_per_call _ _ _ _ hs).2 ht
  have hr := scanC_of hs
  refine ⟨?_, ?_, h1⟩
  · intro h0
    rw [h0, C03_empty] at hr
    cases hr
    exact ht rfl
  · rcases h.alt with ⟨he, D, hD, _⟩ | ⟨he, hD, _⟩
    · rw [he] at hr
      have := goodSplit_grapheme.final _ _ hr ht D true
      rwa [hD] at this
    · rw [he] at hr
      rwa [← hD]

/-- The work of one call of `Scan` on the bytes `rest`. -/
structure ScanWork (s : Scanner σ) (rest : List UInt8) (b : Bool) (w : Work) : Prop where
  calls : w.calls ≤ w.reads + 1
  nothing : rest = [] → w.lookups = 0
  token : b = true → ∀ r, ScanGraphemeClusters rest true = .ok r → rest ≠ [] →
    w.lookups ≤ (r.advance + 1) + w.reads * (r.advance + 3) ∧
    (s.win = [] → w.lookups + (r.advance + 3) ≤ (r.advance + 1) + w.reads * (r.advance + 3))
  no_token : b = false → ∀ r, ScanGraphemeClusters rest true = .ok r → rest ≠ [] →
    w.lookups ≤ (w.reads + 1) * (r.advance + 3) ∧ (s.win = [] → w.lookups ≤ w.reads * (r.advance + 3))

theorem win_nil {read : Reader σ} {E : IOErr} {M C : Nat} {s : Scanner σ} (h : At read E M C s []) : s.win = [] := by
  rcases h.alt with ⟨_, D, hD, _⟩ | ⟨_, hD, _⟩
  · exact (List.append_eq_nil_iff.mp hD).1
  · exact hD

theorem loopC_work {read : Reader σ} {E : IOErr} {M C : Nat} {rest : List UInt8} (fuel : Nat) : ∀ (s s' : Scanner σ) (b : Bool)
    (w : Work), At read E M C s rest → loopC ScanGraphemeClustersC read M fuel s = .ok (b, s', w) → ScanWork s rest b w := by
  induction fuel with
  | zero => intro s s' b w _ h; cases h
  | succ fuel ih =>
    intro s s' b w hat h
    rw [loopC] at h
    obtain ⟨x, hx, hdone⟩ := round_spec goodSplit_grapheme read E hat
    rw [← roundC_erase scanC_erase] at hx
    cases hr : roundC ScanGraphemeClustersC read M s with
    | error e => rw [hr] at hx; cases hx
    | ok y =>
      obtain ⟨o, t, w1⟩ := y
      rw [hr] at hx h
      simp only [Except.map, Except.ok.injEq] at hx
      subst hx
      simp only [bind, Except.bind] at h
      have hwork := roundC_work scanC_erase goodSplit_grapheme hat.bounds hr
      -- the lookups of a round without a token
      have key : o ≠ some true → w1.calls ≤ 1 ∧ (s.win = [] → w1.lookups = 0) ∧
          ∀ r, ScanGraphemeClusters rest true = .ok r → rest ≠ [] → w1.lookups ≤ r.advance + 3 := by
        intro ho
        cases hwork with
        | idle _ _ n a1 a2 a3 a4 a5 => exact ⟨Nat.zero_le _, fun _ => rfl, fun _ _ _ => Nat.zero_le _⟩
        | token _ r k a1 a2 => exact absurd rfl ho
        | wait _ _ r k n a1 a2 a3 a4 a5 =>
          obtain ⟨b1, b2⟩ := wait_lookups hat a1 a2
          refine ⟨Nat.le_refl _, fun h0 => ?_, b2⟩
          rw [h0] at b1
          show k = 0
          simpa using b1
      cases o with
      | none =>
        obtain ⟨k1, k2, k3⟩ := key (by simp)
        have hreads : 1 ≤ w1.reads := by
          cases hwork with
          | idle _ _ n a1 a2 a3 a4 a5 => exact a4 rfl
          | wait _ _ r k n a1 a2 a3 a4 a5 => exact a4 rfl
        cases hdone with
        | again _ d1 d2 d3 =>
        simp only at h
        cases hl : loopC ScanGraphemeClustersC read M fuel t with
        | error e => rw [hl] at h; cases h
        | ok z =>
          obtain ⟨b', s'', w2⟩ := z
          rw [hl] at h
          simp only [Except.ok.injEq, Prod.mk.injEq] at h
          obtain ⟨rfl, rfl, rfl⟩ := h
          have i := ih _ _ _ _ d1 hl
          have e1 : (w1 + w2).reads = w1.reads + w2.reads := rfl
          have e2 : (w1 + w2).calls = w1.calls + w2.calls := rfl
          have e3 : (w1 + w2).lookups = w1.lookups + w2.lookups := rfl
          refine ⟨?_, ?_, ?_, ?_⟩
          · have := i.calls
            omega
          · intro h0
            have := i.nothing h0
            subst h0
            have := k2 (win_nil hat)
            omega
          · intro hb r hr' hne
            have j := (i.token hb r hr' hne).1
            have l := k3 r hr' hne
            obtain ⟨n, hn⟩ : ∃ n, w1.reads = n + 1 := ⟨w1.reads - 1, by omega⟩
            rw [e1, e3, hn]
            have e4 : (n + 1 + w2.reads) * (r.advance + 3) = n * (r.advance + 3) + (r.advance + 3) + w2.reads * (r.advance + 3) := by
              rw [Nat.add_mul, Nat.add_mul, Nat.one_mul]
            rw [e4]
            refine ⟨by omega, fun h0 => ?_⟩
            have := k2 h0
            omega
          · intro hb r hr' hne
            have j := (i.no_token hb r hr' hne).1
            have l := k3 r hr' hne
            obtain ⟨n, hn⟩ : ∃ n, w1.reads = n + 1 := ⟨w1.reads - 1, by omega⟩
            rw [Nat.add_mul, Nat.one_mul] at j
            rw [e1, e3, hn]
            have e4 : (n + 1 + w2.reads) * (r.advance + 3) = n * (r.advance + 3) + (r.advance + 3) + w2.reads * (r.advance + 3) := by
              rw [Nat.add_mul, Nat.add_mul, Nat.one_mul]
            rw [Nat.add_mul _ 1, Nat.one_mul, e4]
            refine ⟨by omega, fun h0 => ?_⟩
            have := k2 h0
            omega
      | some b' =>
        simp only at h
        cases h
        cases b with
        | true =>
          cases hwork with
          | token _ r k a1 a2 =>
            obtain ⟨b1, b2, b3⟩ := token_lookups hat a1 a2
            refine ⟨Nat.le_refl _, fun h0 => ?_, fun _ r' hr' _ => ?_, fun h => by cases h⟩
            · subst h0
              exact absurd (win_nil hat) b1
            · rw [b2] at hr'
              cases hr'
              exact ⟨by simp only; omega, fun h => absurd h b1⟩
          | idle _ _ n a1 a2 a3 a4 a5 => cases (a5 (by simp)).2
          | wait _ _ r k n a1 a2 a3 a4 a5 => cases (a5 (by simp)).2
        | false =>
          obtain ⟨k1, k2, k3⟩ := key (by simp)
          refine ⟨by omega, fun h0 => ?_, fun h => absurd h (by decide), fun _ r' hr' hne => ⟨?_, fun h0 => ?_⟩⟩
          · subst h0
            exact k2 (win_nil hat)
          · have := k3 r' hr' hne
            rw [Nat.add_mul, Nat.one_mul]
            omega
          · have := k2 h0
            omega

theorem collectC_work {read : Reader σ} {E : IOErr} {M C L : Nat} (fuel : Nat) : ∀ (s : Scanner σ) (rest : List UInt8)
    (all emitted : List (List UInt8)) (e : Option IOErr) (w : Work), At read E M C s rest → SplitsTo ScanGraphemeClusters rest all →
    (∀ t ∈ all, t.length ≤ L) → collectC ScanGraphemeClustersC read M fuel s = .ok (emitted, e, w) →
    w.calls ≤ emitted.length + w.reads + 1 ∧
    w.lookups ≤ emitted.flatten.length + emitted.length + w.reads * (L + 3) + (if s.win = [] then 0 else L + 3) := by
  induction fuel with
  | zero => intro s rest all emitted e w _ _ _ h; cases h
  | succ fuel ih =>
    intro s rest all emitted e w hat hall hL h
    rw [collectC] at h
    obtain ⟨x, hx, hdone⟩ := Scan_spec goodSplit_grapheme read E hat
    rw [← ScanC_erase scanC_erase] at hx
    cases hr : s.ScanC ScanGraphemeClustersC read M with
    | error e => rw [hr] at hx; cases hx
    | ok y =>
      obtain ⟨b, t, w1⟩ := y
      rw [hr] at hx h
      simp only [Except.map, Except.ok.injEq] at hx
      subst hx
      simp only [bind, Except.bind] at h
      have hwork : ScanWork s rest b w1 := by
        unfold ScanC at hr
        rw [hat.notDone] at hr
        exact loopC_work _ _ _ _ _ hat hr
      cases b with
      | true =>
        cases hdone with
        | token _ r tok d1 d2 d3 d4 d5 d6 d7 d8 =>
        simp only at h
        cases hl : collectC ScanGraphemeClustersC read M fuel t with
        | error e => rw [hl] at h; cases h
        | ok z =>
          obtain ⟨em, e', w2⟩ := z
          rw [hl] at h
          simp only [Except.ok.injEq, Prod.mk.injEq] at h
          obtain ⟨rfl, -, rfl⟩ := h
          cases hall with
          | nil => exact absurd rfl d1
          | cons _ r' tok' toks a1 a2 a3 a4 a5 =>
          rw [d2] at a2
          cases a2
          rw [d3] at a3
          cases a3
          obtain ⟨c1, _, c3⟩ := C02_token_is_consumed_prefix rest true r d2
          have htok : tok.length = r.advance := by rw [c3 tok d3, List.length_take]; omega
          have hle : r.advance ≤ L := by rw [← htok]; exact hL tok (by simp)
          obtain ⟨i1, i2⟩ := ih t _ toks em e' w2 d6 a5 (fun t ht => hL t (by simp [ht])) hl
          have e1 : (w1 + w2).reads = w1.reads + w2.reads := rfl
          have e2 : (w1 + w2).calls = w1.calls + w2.calls := rfl
          have e3 : (w1 + w2).lookups = w1.lookups + w2.lookups := rfl
          have hb : (t.Bytes.getD []) = tok := by simp only [Bytes, d5, Option.getD]
          rw [hb, e1, e2, e3]
          simp only [List.length_cons, List.flatten_cons, List.length_append, htok]
          obtain ⟨j1, j2⟩ := hwork.token rfl r d2 d1
          have hc := hwork.calls
          have hm : w1.reads * (r.advance + 3) ≤ w1.reads * (L + 3) := Nat.mul_le_mul_left _ (by omega)
          refine ⟨by omega, ?_⟩
          rw [Nat.add_mul]
          by_cases h0 : s.win = []
          · have j := j2 h0
            -- at least one read
            obtain ⟨n, hn⟩ : ∃ n, w1.reads = n + 1 := by
              refine ⟨w1.reads - 1, ?_⟩
              rcases Nat.eq_zero_or_pos w1.reads with h | h
              · rw [h] at j; omega
              · omega
            have e5 : w1.reads * (r.advance + 3) = n * (r.advance + 3) + (r.advance + 3) := by rw [hn, Nat.add_mul, Nat.one_mul]
            have e6 : w1.reads * (L + 3) = n * (L + 3) + (L + 3) := by rw [hn, Nat.add_mul, Nat.one_mul]
            have hm' : n * (r.advance + 3) ≤ n * (L + 3) := Nat.mul_le_mul_left _ (by omega)
            rw [if_pos h0]
            split at i2 <;> omega
          · rw [if_neg h0]
            split at i2 <;> omega
      | false =>
        simp only at h
        cases h
        have hc := hwork.calls
        refine ⟨by simp only [List.length_nil]; omega, ?_⟩
        simp only [List.flatten_nil, List.length_nil]
        by_cases hne : rest = []
        · have := hwork.nothing hne
          omega
        · cases hall with
          | nil => exact absurd rfl hne
          | cons _ r tok toks a1 a2 a3 a4 a5 =>
          obtain ⟨c1, _, c3⟩ := C02_token_is_consumed_prefix rest true r a2
          have htok : tok.length = r.advance := by rw [c3 tok a3, List.length_take]; omega
          have hle : r.advance ≤ L := by rw [← htok]; exact hL tok (by simp)
          obtain ⟨j1, j2⟩ := hwork.no_token rfl r a2 a1
          have hm : w.reads * (r.advance + 3) ≤ w.reads * (L + 3) := Nat.mul_le_mul_left _ (by omega)
          rw [Nat.add_mul, Nat.one_mul] at j1
          by_cases h0 : s.win = []
          · have := j2 h0
            omega
          · rw [if_neg h0]
            omega

/-! ## A slow reader -/

theorem lookup_width {p : List UInt8} {props : CharProperties} {n : Nat} (hp : p ≠ []) (h : LookupFirstChar p = .ok (props, n)) :
    n ≤ 4 ∧ (n = 0 → p.length ≤ 3) := by
  rcases lookup_cases p hp with ⟨bs, rest, h1, _, h3⟩ | ⟨_, ⟨b, t, m, rfl, h2, h3⟩, h4⟩ | ⟨_, h2⟩
  · rw [h3] at h
    cases h
    exact ⟨h1.length_le, fun h => by have := h1.length_pos; omega⟩
  · rw [h4] at h
    cases h
    have := announced_le h2
    exact ⟨Nat.zero_le _, fun _ => by simp only [List.length_cons]; omega⟩
  · have := h2 []
    rw [List.append_nil] at this
    rw [this] at h
    cases h
    exact ⟨by omega, fun h => by omega⟩

theorem emit_token {data : List UInt8} {n : Nat} {r : SplitResult} (h : emit data n = .ok r) : r.token ≠ none := by
  unfold emit at h
  simp only [bind, Except.bind] at h
  split at h
  · cases h
  · cases h; simp

theorem scanLoopC_undecided (data : List UInt8) (e : Bool) (fuel count : Nat) (remain : List UInt8) (s : State)
    (prev : CharProperties) (r : SplitResult) (k : Nat)
    (h : scanLoopC data e fuel count remain s prev = .ok (r, k)) (ht : r.token = none) : remain.length ≤ 4 * k := by
  induction fuel generalizing count remain s prev k with
  | zero => cases h
  | succ fuel ih =>
    have hemit : ∀ j, (do let r ← emit data count; .ok (r, j) : Go (SplitResult × Nat)) = .ok (r, k) → False := by
      intro j hj
      simp only [bind, Except.bind] at hj
      split at hj
      · cases hj
      · next he => cases hj; exact emit_token he ht
    rw [scanLoopC] at h
    split at h
    · next hr =>
      simp only [beq_iff_eq] at hr
      omega
    · next hr =>
      have hr' : remain ≠ [] := by
        intro h0
        rw [h0] at hr
        exact hr rfl
      cases hl : LookupFirstChar remain with
      | error e => rw [hl] at h; cases h
      | ok p =>
        obtain ⟨next, m⟩ := p
        obtain ⟨w1, w2⟩ := lookup_width hr' hl
        rw [hl] at h
        simp only [bind, Except.bind] at h
        split at h
        · exact absurd h (fun h => hemit 1 h)
        · split at h
          · next hm =>
            have := w2 (by simpa using hm)
            split at h
            · exact absurd h (fun h => hemit 1 h)
            · cases h
              omega
          · cases hg : goSliceFrom remain m with
            | error e => rw [hg] at h; cases h
            | ok remain' =>
              rw [hg] at h
              simp only at h
              obtain ⟨h3, h4⟩ := goSliceFrom_inv hg
              cases hT : Transition s prev next with
              | error e => rw [hT] at h; cases h
              | ok q =>
                obtain ⟨split, ns⟩ := q
                rw [hT] at h
                simp only at h
                split at h
                · exact absurd h (fun h => hemit 1 h)
                · cases hs : scanLoopC data e fuel (count + m) remain' ns next with
                  | error e => rw [hs] at h; cases h
                  | ok q' =>
                    rw [hs] at h
                    obtain ⟨r', k'⟩ := q'
                    simp only [Except.ok.injEq, Prod.mk.injEq] at h
                    obtain ⟨rfl, rfl⟩ := h
                    have := ih _ _ _ _ _ hs
                    rw [h4, List.length_drop] at this
                    omega

/-- A call that gives no token looks at all the bytes, at most four of them per lookup. -/
theorem scanC_undecided {data : List UInt8} {e : Bool} {r : SplitResult} {k : Nat}
    (h : ScanGraphemeClustersC data e = .ok (r, k)) (ht : r.token = none) : data.length ≤ 4 * k := by
  have hemit : ∀ j, (do let r ← emit data 1; .ok (r, j) : Go (SplitResult × Nat)) = .ok (r, k) → False := by
    intro j hj
    simp only [bind, Except.bind] at hj
    split at hj
    · cases hj
    · next he => cases hj; exact emit_token he ht
  rw [ScanGraphemeClustersC] at h
  split at h
  · next hr =>
    simp only [beq_iff_eq] at hr
    omega
  · next hr =>
    have hr' : data ≠ [] := by
      intro h0
      rw [h0] at hr
      exact hr rfl
    cases hl : LookupFirstChar data with
    | error e => rw [hl] at h; cases h
    | ok p =>
      obtain ⟨next, m⟩ := p
      obtain ⟨w1, w2⟩ := lookup_width hr' hl
      rw [hl] at h
      simp only [bind, Except.bind] at h
      split at h
      · exact absurd h (fun h => hemit 1 h)
      · split at h
        · next hm =>
          have := w2 (by simpa using hm)
          split at h
          · exact absurd h (fun h => hemit 1 h)
          · cases h
            omega
        · cases hg : goSliceFrom data m with
          | error e => rw [hg] at h; cases h
          | ok remain' =>
            rw [hg] at h
            simp only at h
            obtain ⟨h3, h4⟩ := goSliceFrom_inv hg
            cases hb : Begin next with
            | error e => rw [hb] at h; cases h
            | ok s =>
              rw [hb] at h
              simp only at h
              cases hs : scanLoopC data e (data.length + 1) m remain' s next with
              | error e => rw [hs] at h; cases h
              | ok q' =>
                rw [hs] at h
                obtain ⟨r', k'⟩ := q'
                simp only [Except.ok.injEq, Prod.mk.injEq] at h
                obtain ⟨rfl, rfl⟩ := h
                have := scanLoopC_undecided _ _ _ _ _ _ _ _ _ hs ht
                rw [h4, List.length_drop] at this
                omega

theorem setErr_stop (s : Scanner σ) (e : IOErr) : (s.setErr e).stop = s.stop ∧ (s.setErr e).start = s.start := by
  unfold setErr
  split <;> exact ⟨rfl, rfl⟩

theorem readOnce_slow {read : Reader σ} (hslow : ∀ s room, (read s room).n ≤ 1) (s : Scanner σ) :
    (readOnce read s).2.start = s.start ∧ (readOnce read s).2.stop ≤ s.stop + 1 ∧
    ((readOnce read s).1 = false → (readOnce read s).2.stop = s.stop) := by
  have h := hslow s.rd (s.buf.length - s.stop)
  unfold readOnce
  simp only
  split
  · next h1 =>
    refine ⟨(setErr_stop _ _).2, ?_, fun h => by cases h⟩
    rw [(setErr_stop _ _).1]
    simp only
    omega
  · next h1 =>
    split
    · refine ⟨(setErr_stop _ _).2, ?_, fun h => by cases h⟩
      rw [(setErr_stop _ _).1]
      simp only
      omega
    · split
      · refine ⟨rfl, ?_, fun h => by cases h⟩
        simp only
        omega
      · refine ⟨rfl, ?_, fun _ => ?_⟩
        · simp only
          omega
        · simp only
          omega

theorem readLoop_slow {read : Reader σ} (hslow : ∀ s room, (read s room).n ≤ 1) (left : Nat) : ∀ s : Scanner σ,
    (readLoop read left s).start = s.start ∧ (readLoop read left s).stop ≤ s.stop + 1 := by
  induction left with
  | zero =>
    intro s
    obtain ⟨h1, h2, h3⟩ := readOnce_slow hslow s
    rw [readLoop]
    rcases hr : readOnce read s with ⟨b, s'⟩
    rw [hr] at h1 h2
    cases b
    · exact ⟨by rw [(setErr_stop _ _).2]; exact h1, by rw [(setErr_stop _ _).1]; exact h2⟩
    · exact ⟨h1, h2⟩
  | succ left ih =>
    intro s
    obtain ⟨h1, h2, h3⟩ := readOnce_slow hslow s
    rw [readLoop]
    rcases hr : readOnce read s with ⟨b, s'⟩
    rw [hr] at h1 h2 h3
    cases b
    · obtain ⟨i1, i2⟩ := ih s'
      have := h3 rfl
      simp only at h1 this ⊢
      omega
    · exact ⟨h1, h2⟩

theorem more_slow {read : Reader σ} (hslow : ∀ s room, (read s room).n ≤ 1) {M : Nat} {s s' : Scanner σ} (hb : s.Bounds)
    (h : more read M s = .ok (none, s')) : s'.stop - s'.start ≤ s.stop - s.start + 1 := by
  obtain ⟨h1, h2, h3, h4, h5, h6, h7⟩ := shift_spec hb
  have hl : (s.shift s.win).stop - (s.shift s.win).start = s.stop - s.start := by
    rw [← win_length h1, h2, win_length hb]
  unfold more at h
  split at h
  · cases h
  · rw [window_eq hb] at h
    simp only [bind, Except.bind] at h
    cases hg : (s.shift s.win).grow M s.win with
    | none => rw [hg] at h; cases h
    | some t =>
      rw [hg] at h
      cases h
      obtain ⟨r1, r2⟩ := readLoop_slow hslow maxConsecutiveEmptyReads t
      have : t.stop - t.start = s.stop - s.start := by
        unfold grow at hg
        split at hg
        · split at hg
          · cases hg
          · cases hg
            exact hl
        · cases hg
          exact hl
      omega

/-- A reader that gives at most one byte at a time, and a single token. -/
theorem loopC_slow {read : Reader σ} (hslow : ∀ s room, (read s room).n ≤ 1) {E : IOErr} {M C : Nat} {rest : List UInt8}
    {r : SplitResult} (hr : ScanGraphemeClusters rest true = .ok r) (hall : r.advance = rest.length) (hC : rest.length < C)
    (fuel : Nat) : ∀ (s s' : Scanner σ) (b : Bool) (w : Work), At read E M C s rest → s.err = none →
    loopC ScanGraphemeClustersC read M fuel s = .ok (b, s', w) →
    rest.length * rest.length + s.win.length ≤ 8 * w.lookups + s.win.length * s.win.length + rest.length := by
  induction fuel with
  | zero => intro s s' b w _ _ h; cases h
  | succ fuel ih =>
    intro s s' b w hat hnone h
    rw [loopC] at h
    obtain ⟨x, hx, hdone⟩ := round_spec goodSplit_grapheme read E hat
    have hx0 := hx
    rw [← roundC_erase scanC_erase] at hx
    cases hrd : roundC ScanGraphemeClustersC read M s with
    | error e => rw [hrd] at hx; cases hx
    | ok y =>
      obtain ⟨o, t, w1⟩ := y
      rw [hrd] at hx h
      simp only [Except.map, Except.ok.injEq] at hx
      subst hx
      simp only [bind, Except.bind] at h
      have hwork := roundC_work scanC_erase goodSplit_grapheme hat.bounds hrd
      have hwin : s.win.length ≤ rest.length := by
        rcases hat.alt with ⟨_, D, hD, _⟩ | ⟨_, hD, _⟩
        · rw [← hD]; simp
        · rw [hD]; exact Nat.le_refl _
      cases hdone with
      | again _ d1 d2 d3 =>
        -- the cost of this round
        have hk : s.win.length ≤ 4 * w1.lookups := by
          cases hwork with
          | idle _ _ n a1 a2 a3 a4 a5 => rw [a1]; exact Nat.zero_le _
          | wait _ _ q k n a1 a2 a3 a4 a5 => exact scanC_undecided a1 a2
        have hstep : t.win.length ≤ s.win.length + 1 := by
          rw [win_length d1.bounds, win_length hat.bounds]
          cases hwork with
          | idle _ _ n a1 a2 a3 a4 a5 =>
            refine more_slow hslow (M := M) hat.bounds ?_
            rw [← moreC_erase, a3]; rfl
          | wait _ _ q k n a1 a2 a3 a4 a5 =>
            refine more_slow hslow (M := M) (s := { s with token := none }) hat.bounds ?_
            rw [← moreC_erase, a3]; rfl
        simp only at h
        cases hl : loopC ScanGraphemeClustersC read M fuel t with
        | error e => rw [hl] at h; cases h
        | ok z =>
          obtain ⟨b', s'', w2⟩ := z
          rw [hl] at h
          simp only [Except.ok.injEq, Prod.mk.injEq] at h
          obtain ⟨rfl, rfl, rfl⟩ := h
          have e3 : (w1 + w2).lookups = w1.lookups + w2.lookups := rfl
          rw [e3]
          generalize hi : s.win.length = i at *
          generalize hn : rest.length = n at *
          rcases d1.alt with ⟨he, D, hD, _⟩ | ⟨he, hD, _⟩
          · have hlt : i < t.win.length := by
              rcases d3 with d3 | d3
              · exact absurd he d3
              · exact d3
            have hi' : t.win.length = i + 1 := by omega
            have := ih t s'' b' w2 d1 he hl
            rw [hi'] at this
            have e : (i + 1) * (i + 1) = i * i + 2 * i + 1 := by
              rw [Nat.add_mul, Nat.mul_add]
              omega
            rw [e] at this
            omega
          · have hn' : n ≤ i + 1 := by rw [← hn, ← hD]; exact hstep
            have hcase : n = i ∨ n = i + 1 := by omega
            rcases hcase with h | h
            · subst h; omega
            · subst h
              have e : (i + 1) * (i + 1) = i * i + 2 * i + 1 := by
                rw [Nat.add_mul, Nat.mul_add]
                omega
              rw [e]
              omega
      | token _ q tok d1 d2 d3 d4 d5 d6 d7 d8 =>
        cases hwork with
        | idle _ _ n a1 a2 a3 a4 a5 => cases (a5 (by simp)).2
        | wait _ _ q k n a1 a2 a3 a4 a5 => cases (a5 (by simp)).2
        | token _ q' k a1 a2 =>
          obtain ⟨b1, b2, b3⟩ := token_lookups hat a1 a2
          have hq := scanC_of a1
          rw [b2] at hr
          cases hr
          rw [hnone] at hq
          obtain ⟨o, ho⟩ := ScanRes.total false s.win
          rw [show ((none : Option IOErr) != none) = false by rfl, scan_eq ho] at hq
          cases o with
          | none => cases hq; exact absurd rfl a2
          | some j =>
            cases hq
            replace hall : j = rest.length := hall
            have hp := List.length_pos_iff.mpr b1
            by_cases h2 : 2 ≤ s.win.length
            · have := scanRes_decided_lt ho h2
              omega
            · have hj := (ho.bounds j rfl)
              have h1 : s.win.length = 1 := by omega
              have : rest.length = 1 := by omega
              rw [h1, this]
              omega
      | finish _ d1 d2 =>
        have : s.win = [] := by subst d1; exact win_nil hat
        rw [this, d1]
        simp
      | tooLong _ d1 d2 d3 =>
        have := d1.1
        omega

theorem collectC_slow {read : Reader σ} (hslow : ∀ s room, (read s room).n ≤ 1) {E : IOErr} {M C : Nat} {rest : List UInt8}
    {r : SplitResult} (hr : ScanGraphemeClusters rest true = .ok r) (hall : r.advance = rest.length) (hC : rest.length < C)
    (fuel : Nat) (s : Scanner σ) (emitted : List (List UInt8)) (e : Option IOErr) (w : Work) (hat : At read E M C s rest)
    (hnone : s.err = none) (hwin : s.win = []) (h : collectC ScanGraphemeClustersC read M fuel s = .ok (emitted, e, w)) :
    rest.length * rest.length ≤ 8 * w.lookups + rest.length := by
  cases fuel with
  | zero => cases h
  | succ fuel =>
    rw [collectC] at h
    cases hc : s.ScanC ScanGraphemeClustersC read M with
    | error e => rw [hc] at h; cases h
    | ok y =>
      obtain ⟨b, t, w1⟩ := y
      have hl : rest.length * rest.length + s.win.length ≤ 8 * w1.lookups + s.win.length * s.win.length + rest.length := by
        have h' := hc
        unfold ScanC at h'
        rw [hat.notDone] at h'
        exact loopC_slow hslow hr hall hC _ _ _ _ _ hat hnone h'
      rw [hwin] at hl
      simp only [List.length_nil] at hl
      rw [hc] at h
      simp only [bind, Except.bind] at h
      cases b with
      | false => cases h; omega
      | true =>
        simp only at h
        cases hl2 : collectC ScanGraphemeClustersC read M fuel t with
        | error e => rw [hl2] at h; cases h
        | ok z =>
          obtain ⟨em, e', w2⟩ := z
          rw [hl2] at h
          simp only [Except.ok.injEq, Prod.mk.injEq] at h
          obtain ⟨rfl, -, rfl⟩ := h
          have e3 : (w1 + w2).lookups = w1.lookups + w2.lookups := rfl
          omega

end Scanner
end Textseg
