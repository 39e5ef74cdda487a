import Verif.Proofs.Rules
import Verif.Model.Scan
/-!
# What ScanGraphemeClusters returns
-/

namespace Textseg
open Spec

/-- `Grow e R p r`: with reversed context `R` (of the current run) and remaining data `p`, the cluster grows by `r` bytes,
or more data is needed (`none`). -/
inductive Grow (e : Bool) : Text → List UInt8 → Option Nat → Prop where
  | nil (R) : Grow e R [] (if e then some 0 else none)
  | bad (R p) : p ≠ [] → ¬ StartsWithSeq p → (∀ q, LookupFirstChar (p ++ q) = .ok (ErrorProps, 1)) → Grow e R p (some 0)
  | incomplete (R) (b : UInt8) (t : List UInt8) (n : Nat) : announced b = some n → t.length + 1 < n →
      Grow e R (b :: t) (if e then some 0 else none)
  | split (R bs rest) : IsSeq bs → brk R (seqProps bs) = true → Grow e R (bs ++ rest) (some 0)
  | more (R bs rest r) : IsSeq bs → brk R (seqProps bs) = false → Grow e (seqProps bs :: R) rest r →
      Grow e R (bs ++ rest) (r.map (bs.length + ·))

theorem Grow.total (e : Bool) (R : Text) (p : List UInt8) : ∃ r, Grow e R p r := by
  induction h : p.length using Nat.strongRecOn generalizing R p with
  | ind n ih =>
    by_cases hp : p = []
    · exact ⟨_, hp ▸ Grow.nil R⟩
    · rcases lookup_cases p hp with ⟨bs, rest, h1, rfl, _⟩ | ⟨_, ⟨b, t, n, rfl, h1, h2⟩, _⟩ | ⟨h1, h2⟩
      · cases hb : brk R (seqProps bs)
        · have := h1.length_pos
          obtain ⟨r, hr⟩ := ih rest.length (by rw [← h]; simp; omega) (seqProps bs :: R) rest rfl
          exact ⟨_, .more R bs rest r h1 hb hr⟩
        · exact ⟨_, .split R bs rest h1 hb⟩
      · exact ⟨_, .incomplete R b t n h1 h2⟩
      · exact ⟨_, .bad R p hp h1 h2⟩

/-- The result of the split function when the token has `r` bytes. -/
def resultOf (data : List UInt8) : Option Nat → SplitResult
  | none => needMore
  | some k => { advance := k, token := some (data.take k), err := none }

theorem emit_eq (data : List UInt8) (n : Nat) (h : n ≤ data.length) : emit data n = .ok (resultOf data (some n)) := by
  simp [emit, goSliceTo, h, resultOf, bind, Except.bind]

theorem error_ne_zero : (ErrorProps == (0 : CharProperties)) = false := by decide
theorem zero_ne_error : ((0 : CharProperties) == ErrorProps) = false := by decide

theorem scanLoop_eq (data : List UInt8) (e : Bool) {R : Text} {p : List UInt8} {r : Option Nat} (h : Grow e R p r) :
    ∀ (fuel count : Nat) (x : CharProps) (R' : Text), R = x :: R' → CtxOk R → p.length < fuel →
      count + p.length = data.length →
      scanLoop data e fuel count p (stateOf (flags R)) (pack x) = .ok (resultOf data (r.map (count + ·))) := by
  induction h with
  | nil R =>
    intro fuel count x R' hR hok hf hc
    match fuel, hf with
    | fuel + 1, hf =>
      rw [scanLoop]
      cases e
      · rfl
      · simp only [List.length_nil, beq_self_eq_true, if_true, Option.map_some, Nat.add_zero]
        exact emit_eq data count (by simp at hc; omega)
  | bad R p hp hs hl =>
    intro fuel count x R' hR hok hf hc
    match fuel, hf with
    | fuel + 1, hf =>
      have hlen : (p.length == 0) = false := by simpa using hp
      have hl := hl []
      rw [List.append_nil] at hl
      rw [scanLoop]
      simp only [hlen, Bool.false_eq_true, if_false, hl, bind, Except.bind, beq_self_eq_true, if_true,
        Option.map_some, Nat.add_zero]
      exact emit_eq data count (by omega)
  | incomplete R b t n h1 h2 =>
    intro fuel count x R' hR hok hf hc
    match fuel, hf with
    | fuel + 1, hf =>
      rw [scanLoop]
      have hlen : ((b :: t).length == 0) = false := by simp
      simp only [hlen, Bool.false_eq_true, if_false, lookup_incomplete h1 h2, bind, Except.bind, zero_ne_error,
        beq_self_eq_true, if_true, bne, Bool.not_false, Bool.true_and]
      cases e
      · rfl
      · simp only [if_true, Option.map_some, Nat.add_zero]
        exact emit_eq data count (by omega)
  | split R bs rest h1 hb =>
    intro fuel count x R' hR hok hf hc
    match fuel, hf with
    | fuel + 1, hf =>
      subst hR
      have hp := h1.length_pos
      have hlen : ((bs ++ rest).length == 0) = false := by rw [beq_eq_false_iff_ne, List.length_append]; omega
      have he : (pack (seqProps bs) == ErrorProps) = false := by
        simpa using pack_ne_error (seqProps_consistent bs)
      have hl0 : (bs.length == 0) = false := by rw [beq_eq_false_iff_ne]; omega
      have hsl : goSliceFrom (bs ++ rest) bs.length = .ok rest := by simp [goSliceFrom]
      obtain ⟨s, hs, _⟩ := Transition_correct hok (seqProps_consistent bs)
      rw [hb] at hs
      rw [scanLoop]
      simp only [hlen, Bool.false_eq_true, if_false, lookup_seq h1, bind, Except.bind, he, hl0, hsl, hs, if_true,
        Option.map_some, Nat.add_zero]
      exact emit_eq data count (by omega)
  | more R bs rest r h1 hb hg ih =>
    intro fuel count x R' hR hok hf hc
    match fuel, hf with
    | fuel + 1, hf =>
      subst hR
      have hp := h1.length_pos
      have hlen : ((bs ++ rest).length == 0) = false := by rw [beq_eq_false_iff_ne, List.length_append]; omega
      have he : (pack (seqProps bs) == ErrorProps) = false := by
        simpa using pack_ne_error (seqProps_consistent bs)
      have hl0 : (bs.length == 0) = false := by rw [beq_eq_false_iff_ne]; omega
      have hsl : goSliceFrom (bs ++ rest) bs.length = .ok rest := by simp [goSliceFrom]
      obtain ⟨s, hs, hn⟩ := Transition_correct hok (seqProps_consistent bs)
      have hn := hn hb
      rw [hb] at hs
      subst hn
      rw [scanLoop]
      simp only [hlen, Bool.false_eq_true, if_false, lookup_seq h1, bind, Except.bind, he, hl0, hsl, hs]
      rw [List.length_append] at hf hc
      rw [ih fuel (count + bs.length) (seqProps bs) (x :: R') rfl ?_ (by omega) (by omega)]
      · cases r with
        | none => rfl
        | some k => simp only [Option.map_some]; rw [Nat.add_assoc]
      · intro c hc
        rcases List.mem_cons.mp hc with rfl | hc
        · exact seqProps_consistent bs
        · exact hok c hc

/-- `ScanRes e data r`: the split function finds a token of `r` bytes, or needs more data. -/
inductive ScanRes (e : Bool) : List UInt8 → Option Nat → Prop where
  | nil : ScanRes e [] none
  | bad (p) : p ≠ [] → ¬ StartsWithSeq p → (∀ q, LookupFirstChar (p ++ q) = .ok (ErrorProps, 1)) → ScanRes e p (some 1)
  | incomplete (b : UInt8) (t : List UInt8) (n : Nat) : announced b = some n → t.length + 1 < n →
      ScanRes e (b :: t) (if e then some 1 else none)
  | seq (bs rest r) : IsSeq bs → Grow e [seqProps bs] rest r → ScanRes e (bs ++ rest) (r.map (bs.length + ·))

theorem ScanRes.total (e : Bool) (p : List UInt8) : ∃ r, ScanRes e p r := by
  by_cases hp : p = []
  · exact ⟨none, hp ▸ ScanRes.nil⟩
  · rcases lookup_cases p hp with ⟨bs, rest, h1, rfl, _⟩ | ⟨_, ⟨b, t, n, rfl, h1, h2⟩, _⟩ | ⟨h1, h2⟩
    · obtain ⟨r, hr⟩ := Grow.total e [seqProps bs] rest
      exact ⟨_, .seq bs rest r h1 hr⟩
    · exact ⟨_, .incomplete b t n h1 h2⟩
    · exact ⟨_, .bad p hp h1 h2⟩

theorem scan_eq {e : Bool} {data : List UInt8} {r : Option Nat} (h : ScanRes e data r) :
    ScanGraphemeClusters data e = .ok (resultOf data r) := by
  cases h with
  | nil => rfl
  | bad p hp hs hl =>
    have hlen : (data.length == 0) = false := by simpa using hp
    have hl := hl []
    rw [List.append_nil] at hl
    rw [ScanGraphemeClusters]
    simp only [hlen, Bool.false_eq_true, if_false, hl, bind, Except.bind, beq_self_eq_true, if_true]
    exact emit_eq data 1 (by simp at hlen; cases data <;> simp_all)
  | incomplete b t n h1 h2 =>
    rw [ScanGraphemeClusters]
    have hlen : ((b :: t).length == 0) = false := by simp
    simp only [hlen, Bool.false_eq_true, if_false, lookup_incomplete h1 h2, bind, Except.bind, zero_ne_error,
      beq_self_eq_true, if_true]
    cases e
    · simp [resultOf]
    · simp only [List.length_cons, gt_iff_lt, Nat.zero_lt_succ, decide_true, Bool.and_self, if_true]
      exact emit_eq (b :: t) 1 (by simp)
  | seq bs rest r h1 hg =>
    have hp := h1.length_pos
    have hlen : ((bs ++ rest).length == 0) = false := by rw [beq_eq_false_iff_ne, List.length_append]; omega
    have he : (pack (seqProps bs) == ErrorProps) = false := by
      simpa using pack_ne_error (seqProps_consistent bs)
    have hl0 : (bs.length == 0) = false := by rw [beq_eq_false_iff_ne]; omega
    have hsl : goSliceFrom (bs ++ rest) bs.length = .ok rest := by simp [goSliceFrom]
    rw [ScanGraphemeClusters]
    simp only [hlen, Bool.false_eq_true, if_false, lookup_seq h1, bind, Except.bind, he, hl0, hsl,
      Begin_eq (seqProps_consistent bs)]
    exact scanLoop_eq (bs ++ rest) e hg _ _ (seqProps bs) [] rfl
      (by intro c hc; rw [List.mem_singleton.mp hc]; exact seqProps_consistent bs)
      (by simp only [List.length_append]; omega) (by simp)

/-! ## Bounds, monotonicity -/

theorem Grow.le {e : Bool} {R : Text} {p : List UInt8} {r : Option Nat} (h : Grow e R p r) :
    ∀ k, r = some k → k ≤ p.length := by
  induction h with
  | nil R => intro k hk; split at hk <;> simp_all
  | bad => intro k hk; cases hk; omega
  | incomplete => intro k hk; split at hk <;> simp_all <;> omega
  | split => intro k hk; cases hk; omega
  | more R bs rest r h1 hb hg ih =>
    intro k hk
    cases r with
    | none => cases hk
    | some j =>
      cases hk
      have := ih j rfl
      simp; omega

theorem Grow.eof' {e : Bool} {R : Text} {p : List UInt8} {r : Option Nat} (h : Grow e R p r) (he : e = true) :
    r.isSome = true := by
  induction h with
  | nil R => rw [he]; rfl
  | bad => rfl
  | incomplete => rw [he]; rfl
  | split => rfl
  | more R bs rest r h1 hb hg ih => simpa using ih

theorem Grow.eof {R : Text} {p : List UInt8} {r : Option Nat} (h : Grow true R p r) : r.isSome = true := h.eof' rfl

theorem ScanRes.bounds {e : Bool} {p : List UInt8} {r : Option Nat} (h : ScanRes e p r) :
    ∀ k, r = some k → 1 ≤ k ∧ k ≤ p.length := by
  intro k hk
  cases h with
  | nil => cases hk
  | bad p hp hs hl => cases hk; cases p with | nil => exact absurd rfl hp | cons => simp
  | incomplete b t n h1 h2 => split at hk <;> simp_all <;> omega
  | seq bs rest r h1 hg =>
    cases r with
    | none => cases hk
    | some j =>
      cases hk
      have := hg.le j rfl
      have := h1.length_pos
      simp; omega

theorem ScanRes.eof {p : List UInt8} {r : Option Nat} (h : ScanRes true p r) (hp : p ≠ []) : r.isSome = true := by
  cases h with
  | nil => exact absurd rfl hp
  | bad => rfl
  | incomplete => rfl
  | seq bs rest r h1 hg => simpa using hg.eof

theorem Grow.append {R : Text} {p : List UInt8} {r : Option Nat} (h : Grow false R p r) :
    ∀ k, r = some k → ∀ e q, Grow e R (p ++ q) (some k) := by
  generalize he : false = e' at h
  induction h with
  | nil R => intro k hk; rw [← he] at hk; cases hk
  | bad R p hp hs hl =>
    intro k hk e q
    cases hk
    refine .bad R (p ++ q) (by simp [hp]) ?_ (fun q' => by rw [List.append_assoc]; exact hl _)
    rintro ⟨bs, rest, h1, h2⟩
    have h3 := hl q
    rw [h2, lookup_seq h1] at h3
    simp only [Except.ok.injEq, Prod.mk.injEq] at h3
    exact pack_ne_error (seqProps_consistent bs) h3.1
  | incomplete => intro k hk; rw [← he] at hk; cases hk
  | split R bs rest h1 hb =>
    intro k hk e q
    cases hk
    rw [List.append_assoc]
    exact .split R bs (rest ++ q) h1 hb
  | more R bs rest r h1 hb hg ih =>
    intro k hk e q
    cases r with
    | none => cases hk
    | some j =>
      cases hk
      rw [List.append_assoc]
      exact .more R bs (rest ++ q) (some j) h1 hb (ih j rfl e q)

theorem not_startsWithSeq_of_error {p : List UInt8} (h : LookupFirstChar p = .ok (ErrorProps, 1)) :
    ¬ StartsWithSeq p := by
  rintro ⟨bs, rest, h1, rfl⟩
  rw [lookup_seq h1] at h
  simp only [Except.ok.injEq, Prod.mk.injEq] at h
  exact pack_ne_error (seqProps_consistent bs) h.1

theorem ScanRes.append {p : List UInt8} {k : Nat} (h : ScanRes false p (some k)) (e : Bool) (q : List UInt8) :
    ScanRes e (p ++ q) (some k) := by
  generalize hr : some k = r at h
  cases h with
  | nil => cases hr
  | bad p hp hs hl =>
    cases hr
    exact .bad (p ++ q) (by simp [hp]) (not_startsWithSeq_of_error (hl q))
      (fun q' => by rw [List.append_assoc]; exact hl _)
  | incomplete => cases hr
  | seq bs rest r h1 hg =>
    cases r with
    | none => cases hr
    | some j =>
      cases hr
      rw [List.append_assoc]
      exact .seq bs (rest ++ q) (some j) h1 (hg.append j rfl e q)

theorem ScanRes.unique {e : Bool} {p : List UInt8} {r r' : Option Nat} (h : ScanRes e p r) (h' : ScanRes e p r') :
    r = r' := by
  have := scan_eq h
  rw [scan_eq h'] at this
  have hb := h.bounds
  have hb' := h'.bounds
  cases r <;> cases r' <;> simp_all [resultOf, needMore]

end Textseg
