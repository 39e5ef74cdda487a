import Verif.Model.Cost
import Verif.Props.Split
/-!
# Linear work (C39)
-/

namespace Textseg.Props
open Spec

theorem scanLoopC_erase (data : List UInt8) (e : Bool) (fuel count : Nat) (remain : List UInt8) (s : State)
    (prev : CharProperties) :
    (scanLoopC data e fuel count remain s prev).map (·.1) = scanLoop data e fuel count remain s prev := by
  induction fuel generalizing count remain s prev with
  | zero => rfl
  | succ fuel ih =>
    rw [scanLoopC, scanLoop]
    split
    · split
      · cases emit data count <;> rfl
      · rfl
    · cases LookupFirstChar remain with
      | error e => rfl
      | ok p =>
        obtain ⟨next, m⟩ := p
        simp only [bind, Except.bind]
        split
        · cases emit data count <;> rfl
        · split
          · split
            · cases emit data count <;> rfl
            · rfl
          · cases goSliceFrom remain m with
            | error e => rfl
            | ok remain' =>
              simp only
              cases Transition s prev next with
              | error e => rfl
              | ok q =>
                obtain ⟨split, ns⟩ := q
                simp only
                split
                · cases emit data count <;> rfl
                · rw [← ih]
                  cases scanLoopC data e fuel (count + m) remain' ns next <;> rfl

theorem scanC_erase (data : List UInt8) (e : Bool) :
    (ScanGraphemeClustersC data e).map (·.1) = ScanGraphemeClusters data e := by
  rw [ScanGraphemeClustersC, ScanGraphemeClusters]
  split
  · rfl
  · cases LookupFirstChar data with
    | error e => rfl
    | ok p =>
      obtain ⟨next, m⟩ := p
      simp only [bind, Except.bind]
      split
      · cases emit data 1 <;> rfl
      · split
        · split
          · cases emit data 1 <;> rfl
          · rfl
        · cases goSliceFrom data m with
          | error e => rfl
          | ok remain' =>
            simp only
            cases Begin next with
            | error e => rfl
            | ok s =>
              simp only
              rw [← scanLoopC_erase]
              cases scanLoopC data e (data.length + 1) m remain' s next <;> rfl

theorem allTokensLoopC_erase (fuel : Nat) (data : List UInt8) :
    (allTokensLoopC fuel data).map (·.1) = allTokensLoop fuel data := by
  induction fuel generalizing data with
  | zero => rfl
  | succ fuel ih =>
    rw [allTokensLoopC, allTokensLoop]
    split
    · rfl
    · rw [← scanC_erase]
      cases ScanGraphemeClustersC data true with
      | error e => rfl
      | ok p =>
        obtain ⟨⟨a, t, er⟩, k⟩ := p
        simp only [bind, Except.bind, Except.map]
        cases t with
        | none => rfl
        | some tok =>
          cases er with
          | some _ => rfl
          | none =>
            simp only
            cases goSliceFrom data a with
            | error e => rfl
            | ok rest =>
              simp only
              rw [← ih]
              cases allTokensLoopC fuel rest <;> rfl

/-- C39: the counter changes nothing: forgetting it gives the split function and its loop as modelled. -/
theorem C39_counting_is_transparent (data : List UInt8) (atEOF : Bool) :
    (ScanGraphemeClustersC data atEOF).map (·.1) = ScanGraphemeClusters data atEOF ∧
    (tokensC data).map (·.1) = tokens data :=
  ⟨scanC_erase data atEOF, allTokensLoopC_erase _ _⟩

theorem emit_advance {data : List UInt8} {n : Nat} {r : SplitResult} (h : emit data n = .ok r) : r.advance = n := by
  unfold emit at h
  simp only [bind, Except.bind] at h
  split at h
  · cases h
  · cases h; rfl

theorem goSliceFrom_inv {α : Type} {p q : List α} {n : Nat} (h : goSliceFrom p n = .ok q) : n ≤ p.length ∧ q = p.drop n := by
  unfold goSliceFrom at h
  split at h
  · cases h; exact ⟨by assumption, rfl⟩
  · cases h

theorem scanLoopC_bound (data : List UInt8) (e : Bool) (fuel count : Nat) (remain : List UInt8) (s : State)
    (prev : CharProperties) (r : SplitResult) (k : Nat)
    (h : scanLoopC data e fuel count remain s prev = .ok (r, k)) :
    k ≤ remain.length ∧ (r.token ≠ none → count + k ≤ r.advance + 1) := by
  induction fuel generalizing count remain s prev k with
  | zero => cases h
  | succ fuel ih =>
    have hemit : ∀ j, (do let r ← emit data count; .ok (r, j) : Go (SplitResult × Nat)) = .ok (r, k) →
        r.advance = count ∧ k = j := by
      intro j hj
      simp only [bind, Except.bind] at hj
      split at hj
      · cases hj
      · next he => cases hj; exact ⟨emit_advance he, rfl⟩
    rw [scanLoopC] at h
    split at h
    · split at h
      · obtain ⟨h1, h2⟩ := hemit 0 h
        omega
      · cases h
        exact ⟨by omega, fun h => absurd rfl h⟩
    · next hr =>
      have hr' : 1 ≤ remain.length := by
        simp only [beq_iff_eq] at hr
        omega
      cases hl : LookupFirstChar remain with
      | error e => rw [hl] at h; cases h
      | ok p =>
        obtain ⟨next, m⟩ := p
        rw [hl] at h
        simp only [bind, Except.bind] at h
        split at h
        · obtain ⟨h1, h2⟩ := hemit 1 h
          omega
        · split at h
          · split at h
            · obtain ⟨h1, h2⟩ := hemit 1 h
              omega
            · cases h
              exact ⟨by omega, fun h => absurd rfl h⟩
          · next hm =>
            have hm' : 1 ≤ m := by simp only [beq_iff_eq] at hm; omega
            cases hg : goSliceFrom remain m with
            | error e => rw [hg] at h; cases h
            | ok remain' =>
              rw [hg] at h
              simp only at h
              obtain ⟨h3, h4⟩ := goSliceFrom_inv hg
              cases ht : Transition s prev next with
              | error e => rw [ht] at h; cases h
              | ok q =>
                obtain ⟨split, ns⟩ := q
                rw [ht] at h
                simp only at h
                split at h
                · obtain ⟨h1, h2⟩ := hemit 1 h
                  omega
                · cases hs : scanLoopC data e fuel (count + m) remain' ns next with
                  | error e => rw [hs] at h; cases h
                  | ok q' =>
                    rw [hs] at h
                    obtain ⟨r', k'⟩ := q'
                    simp only [Except.ok.injEq, Prod.mk.injEq] at h
                    obtain ⟨rfl, rfl⟩ := h
                    have := ih _ _ _ _ _ hs
                    rw [h4, List.length_drop] at this
                    refine ⟨by omega, fun ht => ?_⟩
                    have := this.2 ht
                    omega

/-- C39: one call makes at most one lookup per byte of the data, and if it returns a token, at most one lookup per byte of
the token, plus one. -/
theorem C39_lookups_per_call (data : List UInt8) (atEOF : Bool) (r : SplitResult) (k : Nat)
    (h : ScanGraphemeClustersC data atEOF = .ok (r, k)) :
    k ≤ data.length ∧ (r.token ≠ none → k ≤ r.advance + 1) := by
  have hemit : ∀ j, (do let r ← emit data 1; .ok (r, j) : Go (SplitResult × Nat)) = .ok (r, k) →
      r.advance = 1 ∧ k = j := by
    intro j hj
    simp only [bind, Except.bind] at hj
    split at hj
    · cases hj
    · next he => cases hj; exact ⟨emit_advance he, rfl⟩
  rw [ScanGraphemeClustersC] at h
  split at h
  · cases h
    exact ⟨by omega, fun h => absurd rfl h⟩
  · next hr =>
    have hr' : 1 ≤ data.length := by
      simp only [beq_iff_eq] at hr
      omega
    cases hl : LookupFirstChar data with
    | error e => rw [hl] at h; cases h
    | ok p =>
      obtain ⟨next, m⟩ := p
      rw [hl] at h
      simp only [bind, Except.bind] at h
      split at h
      · obtain ⟨h1, h2⟩ := hemit 1 h
        omega
      · split at h
        · split at h
          · obtain ⟨h1, h2⟩ := hemit 1 h
            omega
          · cases h
            exact ⟨by omega, fun h => absurd rfl h⟩
        · next hm =>
          have hm' : 1 ≤ m := by simp only [beq_iff_eq] at hm; omega
          cases hg : goSliceFrom data m with
          | error e => rw [hg] at h; cases h
          | ok remain' =>
            rw [hg] at h
            simp only at h
            obtain ⟨h3, h4⟩ := goSliceFrom_inv hg
            cases hb : Begin next with
            | error e => rw [hb] at h; cases h
            | ok s =>
              rw [hb] at h
              simp only at h
              cases hs : scanLoopC data atEOF (data.length + 1) m remain' s next with
              | error e => rw [hs] at h; cases h
              | ok q' =>
                rw [hs] at h
                obtain ⟨r', k'⟩ := q'
                simp only [Except.ok.injEq, Prod.mk.injEq] at h
                obtain ⟨rfl, rfl⟩ := h
                have := scanLoopC_bound _ _ _ _ _ _ _ _ _ hs
                rw [h4, List.length_drop] at this
                refine ⟨by omega, fun ht => ?_⟩
                have := this.2 ht
                omega

theorem loop_bound (fuel : Nat) (data : List UInt8) (toks : List (List UInt8)) (k : Nat)
    (h : allTokensLoopC fuel data = .ok (toks, k)) : k ≤ data.length + toks.length := by
  induction fuel generalizing data toks k with
  | zero => cases h
  | succ fuel ih =>
    rw [allTokensLoopC] at h
    split at h
    · cases h; omega
    · cases hs : ScanGraphemeClustersC data true with
      | error e => rw [hs] at h; cases h
      | ok p =>
        obtain ⟨⟨a, t, er⟩, j⟩ := p
        have hb := C39_lookups_per_call _ _ _ _ hs
        rw [hs] at h
        simp only [bind, Except.bind] at h
        cases t with
        | none =>
          simp only [Except.ok.injEq, Prod.mk.injEq] at h
          omega
        | some tok =>
          have hb2 : j ≤ a + 1 := hb.2 (by simp)
          cases er with
          | some _ =>
            simp only [Except.ok.injEq, Prod.mk.injEq] at h
            omega
          | none =>
            simp only at h
            cases hg : goSliceFrom data a with
            | error e => rw [hg] at h; cases h
            | ok rest =>
              rw [hg] at h
              simp only at h
              obtain ⟨h3, h4⟩ := goSliceFrom_inv hg
              cases hr : allTokensLoopC fuel rest with
              | error e => rw [hr] at h; cases h
              | ok q =>
                obtain ⟨toks', n⟩ := q
                rw [hr] at h
                simp only [Except.ok.injEq, Prod.mk.injEq] at h
                obtain ⟨rfl, rfl⟩ := h
                have := ih _ _ _ hr
                rw [h4, List.length_drop] at this
                simp only [List.length_cons]
                omega

/-- C39: splitting a whole input makes at most one lookup per byte plus one per token, hence at most two per byte. -/
theorem C39_linear_work (data : List UInt8) :
    ∃ toks k, tokensC data = .ok (toks, k) ∧ tokens data = .ok toks ∧ k ≤ data.length + toks.length ∧
      k ≤ 2 * data.length := by
  obtain ⟨toks, ht, hcat, hne⟩ := C04_tokens_partition_input data
  have h := allTokensLoopC_erase (data.length + 1) data
  rw [show allTokensLoop (data.length + 1) data = tokens data from rfl, ht] at h
  cases hc : allTokensLoopC (data.length + 1) data with
  | error e => rw [hc] at h; cases h
  | ok p =>
    obtain ⟨toks', k⟩ := p
    rw [hc] at h
    cases h
    have hb := loop_bound _ _ _ _ hc
    refine ⟨toks', k, hc, ht, hb, ?_⟩
    have hlen : toks'.length ≤ toks'.flatten.length := by
      clear hb hc ht hcat
      induction toks' with
      | nil => simp
      | cons t ts ih =>
        have h1 := ih (fun x hx => hne x (List.mem_cons_of_mem _ hx))
        have h2 : 0 < t.length := List.length_pos_iff.mpr (hne t List.mem_cons_self)
        simp only [List.flatten_cons, List.length_append, List.length_cons]
        omega
    rw [hcat] at hlen
    omega

/-- Both bounds are reached: "ab" takes three lookups for two tokens in two bytes. -/
example : tokensC [0x61, 0x62] = .ok ([[0x61], [0x62]], 3) := by decide +kernel

end Textseg.Props
