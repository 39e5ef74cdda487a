import Verif.Model.GenTable
import Verif.Proofs.Lookup
import Verif.Proofs.TestDataParse
/-!
# The tree under construction

`IB` lists the paths (6-bit groups of a prefix of a UTF-8 sequence) of the index blocks in the order of allocation, `PB` the
numbers `c / 64` of the characters of the property blocks, `F` the recorded properties.
-/

namespace Textseg.Gen
open Textseg Spec

/-- The 6-bit groups, without the last, of the characters `64 * k, …, 64 * k + 63`. -/
def pathOf (k : Nat) : List Nat :=
  if k < 32 then [k] else if k < 1024 then [32 + k / 64, k % 64] else [48 + k / 4096, k / 64 % 64, k % 64]

/-- A strict prefix of a path. -/
def StrictPrefix (p : List Nat) : Prop := ∃ k x s, 2 ≤ k ∧ k < 17408 ∧ pathOf k = p ++ x :: s

theorem pathOf_cases (k : Nat) : (k < 32 ∧ pathOf k = [k]) ∨ (32 ≤ k ∧ k < 1024 ∧ pathOf k = [32 + k / 64, k % 64]) ∨
    (1024 ≤ k ∧ pathOf k = [48 + k / 4096, k / 64 % 64, k % 64]) := by
  unfold pathOf
  by_cases h : k < 32
  · exact .inl ⟨h, if_pos h⟩
  · by_cases h' : k < 1024
    · refine .inr (.inl ⟨by omega, h', ?_⟩); rw [if_neg h, if_pos h']
    · refine .inr (.inr ⟨by omega, ?_⟩); rw [if_neg h, if_neg h']

theorem pathOf_inj {a b : Nat} (h : pathOf a = pathOf b) : a = b := by
  rcases pathOf_cases a with ⟨_, e⟩ | ⟨_, _, e⟩ | ⟨_, e⟩ <;> rcases pathOf_cases b with ⟨_, e'⟩ | ⟨_, _, e'⟩ | ⟨_, e'⟩ <;>
    rw [e, e'] at h <;> simp at h <;> omega

theorem strictPrefix_ne {p : List Nat} (h : StrictPrefix p) (k : Nat) : pathOf k ≠ p := by
  obtain ⟨a, x, s, _, h2, e⟩ := h
  intro hk
  subst hk
  rcases pathOf_cases a with ⟨_, e1⟩ | ⟨_, _, e1⟩ | ⟨_, e1⟩ <;> rcases pathOf_cases k with ⟨_, e'⟩ | ⟨_, _, e'⟩ | ⟨_, e'⟩ <;>
    rw [e1, e'] at e <;> simp at e <;> omega

theorem strictPrefix_of_append {p q : List Nat} (h : StrictPrefix (p ++ q)) : StrictPrefix p := by
  obtain ⟨k, x, s, h1, h2, e⟩ := h
  cases q with
  | nil => exact ⟨k, x, s, h1, h2, by simpa using e⟩
  | cons y q => exact ⟨k, y, q ++ x :: s, h1, h2, by simpa using e⟩

theorem strictPrefix_cases {p : List Nat} (h : StrictPrefix p) :
    p = [] ∨ (∃ a, a < 21 ∧ p = [32 + a]) ∨ ∃ a b, a < 5 ∧ b < 64 ∧ p = [48 + a, b] := by
  obtain ⟨k, x, s, h1, h2, e⟩ := h
  rcases pathOf_cases k with ⟨_, e1⟩ | ⟨_, _, e1⟩ | ⟨_, e1⟩ <;> rw [e1] at e
  · rcases p with _ | ⟨a, p⟩
    · exact .inl rfl
    · simp at e
  · rcases p with _ | ⟨a, _ | ⟨b, p⟩⟩
    · exact .inl rfl
    · simp at e
      exact .inr (.inl ⟨a - 32, by omega, by simp; omega⟩)
    · simp at e
  · rcases p with _ | ⟨a, _ | ⟨b, _ | ⟨c, p⟩⟩⟩
    · exact .inl rfl
    · simp at e
      exact .inr (.inl ⟨a - 32, by omega, by simp; omega⟩)
    · simp at e
      exact .inr (.inr ⟨a - 48, b, by omega, by omega, by simp; omega⟩)
    · simp at e

/-- All strict prefixes. -/
def prefixes : List (List Nat) :=
  [] :: ((List.range 21).map fun a => [32 + a]) ++ (List.range 5).flatMap fun a => (List.range 64).map fun b => [48 + a, b]

theorem prefixes_length : prefixes.length = 342 := by decide +kernel

theorem strictPrefix_mem {p : List Nat} (h : StrictPrefix p) : p ∈ prefixes := by
  unfold prefixes
  rcases strictPrefix_cases h with h | ⟨a, ha, h⟩ | ⟨a, b, ha, hb, h⟩ <;> subst h <;> simp
  · exact ha
  · exact ⟨ha, hb⟩

/-- What the entry `v` of the index array says at the path `p`. -/
def SlotOK (IB : List (List Nat)) (PB : List Nat) (p : List Nat) (v : Nat) : Prop :=
  (v = 0 ∧ p ∉ IB ∧ ∀ k ∈ PB, 2 ≤ k → pathOf k ≠ p) ∨ IB[v]? = some p ∨ ∃ k, 2 ≤ k ∧ PB[v]? = some k ∧ pathOf k = p

structure Inv (t : Tree) (IB : List (List Nat)) (PB : List Nat) (F : Nat → UInt8) : Prop where
  head : IB[0]? = some []
  nodupI : IB.Nodup
  prefixI : ∀ p ∈ IB, StrictPrefix p
  ascii0 : PB[0]? = some 0
  ascii1 : PB[1]? = some 1
  nodupP : PB.Nodup
  rangeP : ∀ k ∈ PB, k < 17408
  lenI : t.indices.length = 64 * IB.length
  lenP : t.rawProps.length = 64 * PB.length
  slots : ∀ q p d, IB[q]? = some p → d < 64 → ∃ v, t.indices[64 * q + d]? = some v ∧ SlotOK IB PB (p ++ [d]) v.toNat
  vals : ∀ i k j, PB[i]? = some k → j < 64 → t.rawProps[64 * i + j]? = some (F (64 * k + j))
  rest : ∀ c, c / 64 ∉ PB → F c = 0
  parentI : ∀ p d, p ++ [d] ∈ IB → p ∈ IB
  parentP : ∀ p d k, k ∈ PB → 2 ≤ k → pathOf k = p ++ [d] → p ∈ IB

theorem strictPrefix_nil : StrictPrefix [] := ⟨2, 2, [], by omega, by omega, by decide⟩

theorem inv_new : Inv newTree [[]] [0, 1] (fun _ => 0) where
  head := rfl
  nodupI := by simp
  prefixI := by intro p hp; simp at hp; subst hp; exact strictPrefix_nil
  ascii0 := rfl
  ascii1 := rfl
  nodupP := by decide
  rangeP := by decide
  lenI := by simp [newTree]
  lenP := by simp [newTree]
  slots := by
    intro q p d hq hd
    refine ⟨0, ?_, .inl ⟨rfl, ?_, ?_⟩⟩
    · have : q = 0 := by
        rcases q with _ | q
        · rfl
        · simp at hq
      subst this
      show (List.replicate 64 (0 : UInt16))[64 * 0 + d]? = some 0
      rw [List.getElem?_replicate, if_pos (by omega)]
    · simp
    · intro k hk h2; simp at hk; omega
  vals := by
    intro i k j hi hj
    have : i < 2 := by
      have := (List.getElem?_eq_some_iff.mp hi).1
      simpa using this
    show (List.replicate 128 (0 : UInt8))[64 * i + j]? = some 0
    rw [List.getElem?_replicate, if_pos (by omega)]
  rest := by intros; rfl
  parentI := by intro p d hp; simp at hp
  parentP := by intro p d k hk h2; simp at hk; omega

theorem Inv.lengthI {t IB PB F} (h : Inv t IB PB F) : IB.length ≤ 342 := by
  rw [← prefixes_length]
  exact h.nodupI.length_le_of_subset (fun p hp => strictPrefix_mem (h.prefixI p hp))

theorem Inv.lengthP {t IB PB F} (h : Inv t IB PB F) : PB.length ≤ 17408 := by
  have : PB.length ≤ (List.range 17408).length :=
    h.nodupP.length_le_of_subset (fun k hk => List.mem_range.mpr (h.rangeP k hk))
  rwa [List.length_range] at this

theorem Inv.two_le {t IB PB F} (h : Inv t IB PB F) {i k : Nat} (hi : PB[i]? = some k) : 2 ≤ i ↔ 2 ≤ k := by
  have hlt := (List.getElem?_eq_some_iff.mp hi).1
  have inj : ∀ j, PB[j]? = some k → i = j := by
    intro j hj
    exact (List.getElem?_inj hlt h.nodupP).mp (hi.trans hj.symm)
  constructor
  · intro h2
    rcases k with _ | _ | k
    · have := inj 0 h.ascii0; omega
    · have := inj 1 h.ascii1; omega
    · omega
  · intro h2
    rcases i with _ | _ | i
    · rw [h.ascii0] at hi; simp at hi; omega
    · rw [h.ascii1] at hi; simp at hi; omega
    · omega

theorem SlotOK.strict {t IB PB F} (h : Inv t IB PB F) {p : List Nat} {d v : Nat} (hs : SlotOK IB PB (p ++ [d]) v)
    (hp : StrictPrefix (p ++ [d])) : (v = 0 ∧ p ++ [d] ∉ IB) ∨ (v ≠ 0 ∧ IB[v]? = some (p ++ [d])) := by
  rcases hs with ⟨h1, h2, _⟩ | hv | ⟨k, _, _, e⟩
  · exact .inl ⟨h1, h2⟩
  · refine .inr ⟨?_, hv⟩
    intro h0
    rw [h0, h.head] at hv
    simp at hv
  · exact absurd e (strictPrefix_ne hp k)

theorem SlotOK.path {t IB PB F} (h : Inv t IB PB F) {k v : Nat} (hs : SlotOK IB PB (pathOf k) v) :
    (v = 0 ∧ (2 ≤ k → k ∉ PB)) ∨ (2 ≤ v ∧ 2 ≤ k ∧ PB[v]? = some k) := by
  rcases hs with ⟨h1, _, h3⟩ | hv | ⟨k', h2, hv, e⟩
  · exact .inl ⟨h1, fun h2 hk => h3 k hk h2 rfl⟩
  · exact absurd rfl (strictPrefix_ne (h.prefixI _ (List.mem_of_getElem? hv)) k)
  · have := pathOf_inj e
    subst this
    exact .inr ⟨(h.two_le hv).mpr h2, h2, hv⟩

theorem u16_toNat_zero {v : UInt16} : v = 0 ↔ v.toNat = 0 := by
  constructor
  · intro h; subst h; rfl
  · intro h; exact UInt16.toNat_inj.mp h

theorem goIndex_some {α : Type} {p : List α} {i : Nat} {x : α} (h : p[i]? = some x) : goIndex p i = .ok x := by
  unfold goIndex; rw [h]

theorem goSet_ok {α : Type} {p : List α} {i : Nat} {x : α} (h : i < p.length) : goSet p i x = .ok (p.set i x) := by
  unfold goSet; rw [if_pos h]

theorem shl6 (n : Nat) : n <<< 6 = 64 * n := by rw [Nat.shiftLeft_eq]; omega
theorem shr6 (n : Nat) : (64 * n) >>> 6 = n := by rw [Nat.shiftRight_eq_div_pow]; omega

theorem getElem?_append_one {α : Type} {l : List α} {i : Nat} {x y : α} (h : (l ++ [x])[i]? = some y) :
    l[i]? = some y ∨ (i = l.length ∧ y = x) := by
  rw [List.getElem?_append] at h
  split at h
  · exact .inl h
  · right
    have : i - l.length = 0 := by
      rcases hn : i - l.length with _ | n
      · rfl
      · rw [hn] at h; simp at h
    rw [this] at h
    simp at h
    exact ⟨by omega, h.symm⟩

theorem getElem?_append_left' {α : Type} {l l' : List α} {i : Nat} {y : α} (h : l[i]? = some y) :
    (l ++ l')[i]? = some y := by
  rw [List.getElem?_append_left (List.getElem?_eq_some_iff.mp h).1]; exact h

/-- Step over an index block. -/
theorem indexStep_spec {t IB PB F} (h : Inv t IB PB F) {cur : Nat} {p : List Nat} (hc : IB[cur]? = some p) (b : UInt8)
    (hp : StrictPrefix (p ++ [b.toNat % 64])) :
    ∃ t' IB' cur', indexStep t cur b = .ok (t', cur') ∧ Inv t' IB' PB F ∧ IB'[cur']? = some (p ++ [b.toNat % 64]) := by
  obtain ⟨v, hv, hs⟩ := h.slots cur p (b.toNat % 64) hc (by omega)
  have hcl : cur < IB.length := (List.getElem?_eq_some_iff.mp hc).1
  have hat : (cur <<< 6) + (b &&& 63).toNat = 64 * cur + b.toNat % 64 := by rw [shl6, and63]
  unfold indexStep
  simp only [hat, goIndex_some hv]
  rcases hs.strict h hp with ⟨h0, hnot⟩ | ⟨h0, hI⟩
  · refine ⟨{ t with indices := (t.indices ++ List.replicate 64 0).set (64 * cur + b.toNat % 64) (UInt16.ofNat IB.length) },
      IB ++ [p ++ [b.toNat % 64]], IB.length, ?_, ?_, by simp⟩
    · simp only [bind, Except.bind]
      rw [if_pos (u16_toNat_zero.mpr h0), goSet_ok (by rw [List.length_append, h.lenI, List.length_replicate]; omega)]
      simp [h.lenI, shr6]
    · have hlen := h.lengthI
      have hnat : (UInt16.ofNat IB.length).toNat = IB.length := by
        rw [UInt16.toNat_ofNat']; omega
      refine ⟨getElem?_append_left' h.head, ?_, ?_, h.ascii0, h.ascii1, h.nodupP, h.rangeP, ?_, h.lenP, ?_, h.vals, h.rest, ?_, ?_⟩
      · rw [List.nodup_append]
        refine ⟨h.nodupI, by simp, ?_⟩
        intro a ha b' hb' e
        simp at hb'
        subst e
        rw [hb'] at ha
        exact hnot ha
      · intro q hq
        rcases List.mem_append.mp hq with hq | hq
        · exact h.prefixI q hq
        · simp at hq; subst hq; exact hp
      · simp [h.lenI]; omega
      · intro q p' d hq hd
        rcases getElem?_append_one hq with hq | ⟨hq, hq'⟩
        · have hql : q < IB.length := (List.getElem?_eq_some_iff.mp hq).1
          by_cases he : 64 * cur + b.toNat % 64 = 64 * q + d
          · have e1 : q = cur := by omega
            have e2 : d = b.toNat % 64 := by omega
            subst e1 e2
            rw [hc] at hq
            simp only [Option.some.injEq] at hq
            subst hq
            refine ⟨UInt16.ofNat IB.length, ?_, ?_⟩
            · rw [List.getElem?_set, if_pos rfl, if_pos]
              rw [List.length_append, h.lenI]; omega
            · rw [hnat]
              exact .inr (.inl (by simp))
          · obtain ⟨w, hw, hsw⟩ := h.slots q p' d hq hd
            refine ⟨w, ?_, ?_⟩
            · rw [List.getElem?_set, if_neg he]
              exact getElem?_append_left' hw
            · rcases hsw with ⟨e0, e1, e2⟩ | e0 | e0
              · refine .inl ⟨e0, ?_, e2⟩
                intro hm
                rcases List.mem_append.mp hm with hm | hm
                · exact e1 hm
                · simp only [List.mem_singleton] at hm
                  have := List.append_inj' hm rfl
                  have e3 := this.2
                  simp at e3
                  have e4 := (List.getElem?_inj hql h.nodupI).mp (hq.trans ((congrArg some this.1).trans hc.symm))
                  omega
              · exact .inr (.inl (getElem?_append_left' e0))
              · exact .inr (.inr e0)
        · subst hq hq'
          refine ⟨0, ?_, .inl ⟨rfl, ?_, ?_⟩⟩
          · rw [List.getElem?_set, if_neg (by omega), List.getElem?_append_right (by rw [h.lenI]; omega), h.lenI,
              List.getElem?_replicate, if_pos (by omega)]
          · intro hm
            rcases List.mem_append.mp hm with hm | hm
            · exact hnot (h.parentI _ _ hm)
            · simp only [List.mem_singleton] at hm
              have := congrArg List.length hm
              simp at this
          · intro k hk h2 e
            exact hnot (h.parentP _ _ _ hk h2 e)
      · intro p' d hm
        rcases List.mem_append.mp hm with hm | hm
        · exact List.mem_append_left _ (h.parentI _ _ hm)
        · simp only [List.mem_singleton] at hm
          have := (List.append_inj' hm rfl).1
          rw [this]
          exact List.mem_append_left _ (List.mem_of_getElem? hc)
      · intro p' d k hk h2 e
        exact List.mem_append_left _ (h.parentP _ _ _ hk h2 e)
  · refine ⟨t, IB, v.toNat, ?_, h, hI⟩
    simp only [bind, Except.bind]
    rw [if_neg (fun e => h0 (u16_toNat_zero.mp e))]

/-- Step to a property block. -/
theorem propStep_spec {t IB PB F} (h : Inv t IB PB F) {cur : Nat} {p : List Nat} (hc : IB[cur]? = some p) (b : UInt8)
    {k : Nat} (h2 : 2 ≤ k) (hk : k < 17408) (hp : pathOf k = p ++ [b.toNat % 64]) :
    ∃ t' PB' i, propStep t cur b = .ok (t', i) ∧ Inv t' IB PB' F ∧ PB'[i]? = some k ∧
      (PB' = PB ∨ (k ∉ PB ∧ PB' = PB ++ [k])) := by
  obtain ⟨v, hv, hs⟩ := h.slots cur p (b.toNat % 64) hc (by omega)
  have hcl : cur < IB.length := (List.getElem?_eq_some_iff.mp hc).1
  have hat : (cur <<< 6) + (b &&& 63).toNat = 64 * cur + b.toNat % 64 := by rw [shl6, and63]
  unfold propStep
  simp only [hat, goIndex_some hv]
  rw [← hp] at hs
  rcases hs.path h with ⟨h0, hnot⟩ | ⟨h0, _, hI⟩
  · have hnot := hnot h2
    refine ⟨{ rawProps := t.rawProps ++ List.replicate 64 0,
              indices := t.indices.set (64 * cur + b.toNat % 64) (UInt16.ofNat PB.length) },
      PB ++ [k], PB.length, ?_, ?_, by simp, .inr ⟨hnot, rfl⟩⟩
    · simp only [bind, Except.bind]
      rw [if_pos (u16_toNat_zero.mpr h0), goSet_ok (by rw [h.lenI]; omega)]
      simp [h.lenP, shr6]
    · have hlen := h.lengthP
      have hnat : (UInt16.ofNat PB.length).toNat = PB.length := by
        rw [UInt16.toNat_ofNat']; omega
      refine ⟨h.head, h.nodupI, h.prefixI, getElem?_append_left' h.ascii0, getElem?_append_left' h.ascii1, ?_, ?_, ?_, ?_,
        ?_, ?_, ?_, h.parentI, ?_⟩
      · rw [List.nodup_append]
        refine ⟨h.nodupP, by simp, ?_⟩
        intro a ha b' hb' e
        simp at hb'
        subst e
        rw [hb'] at ha
        exact hnot ha
      · intro q hq
        rcases List.mem_append.mp hq with hq | hq
        · exact h.rangeP q hq
        · simp at hq; subst hq; exact hk
      · simp [h.lenI]
      · simp [h.lenP]; omega
      · intro q p' d hq hd
        have hql : q < IB.length := (List.getElem?_eq_some_iff.mp hq).1
        by_cases he : 64 * cur + b.toNat % 64 = 64 * q + d
        · have e1 : q = cur := by omega
          have e2 : d = b.toNat % 64 := by omega
          subst e1 e2
          rw [hc] at hq
          simp only [Option.some.injEq] at hq
          subst hq
          refine ⟨UInt16.ofNat PB.length, ?_, ?_⟩
          · rw [List.getElem?_set, if_pos rfl, if_pos]
            rw [h.lenI]; omega
          · rw [hnat]
            exact .inr (.inr ⟨k, h2, by simp, hp⟩)
        · obtain ⟨w, hw, hsw⟩ := h.slots q p' d hq hd
          refine ⟨w, ?_, ?_⟩
          · rw [List.getElem?_set, if_neg he]
            exact hw
          · rcases hsw with ⟨e0, e1, e2⟩ | e0 | ⟨k', e0, e1, e2⟩
            · refine .inl ⟨e0, e1, ?_⟩
              intro k' hm h2' e
              rcases List.mem_append.mp hm with hm | hm
              · exact e2 k' hm h2' e
              · simp only [List.mem_singleton] at hm
                subst hm
                rw [hp] at e
                have := List.append_inj' e rfl
                have e3 := this.2
                simp at e3
                have e4 := (List.getElem?_inj hql h.nodupI).mp (hq.trans ((congrArg some this.1.symm).trans hc.symm))
                omega
            · exact .inr (.inl e0)
            · exact .inr (.inr ⟨k', e0, getElem?_append_left' e1, e2⟩)
      · intro i k' j hi hj
        rcases getElem?_append_one hi with hi | ⟨hi, hi'⟩
        · exact getElem?_append_left' (h.vals i k' j hi hj)
        · subst hi hi'
          rw [h.rest (64 * k' + j) (by rw [show (64 * k' + j) / 64 = k' by omega]; exact hnot),
            List.getElem?_append_right (by rw [h.lenP]; omega), h.lenP, List.getElem?_replicate, if_pos (by omega)]
      · intro c hc'
        exact h.rest c (fun hm => hc' (List.mem_append_left _ hm))
      · intro p' d k' hk' h2' e
        rcases List.mem_append.mp hk' with hm | hm
        · exact h.parentP _ _ _ hm h2' e
        · simp only [List.mem_singleton] at hm
          subst hm
          rw [hp] at e
          have := (List.append_inj' e rfl).1
          rw [← this]
          exact List.mem_of_getElem? hc
  · refine ⟨t, PB, v.toNat, ?_, h, hI, .inl rfl⟩
    simp only [bind, Except.bind]
    rw [if_neg (fun e => by have := u16_toNat_zero.mp e; omega)]

theorem indexLoop_spec {PB F} (bs : List UInt8) : ∀ {t IB} (_ : Inv t IB PB F) {cur : Nat} {p : List Nat}
    (_ : IB[cur]? = some p) (_ : StrictPrefix (p ++ bs.map fun b => b.toNat % 64)),
    ∃ t' IB' cur', indexLoop t cur bs = .ok (t', cur') ∧ Inv t' IB' PB F ∧
      IB'[cur']? = some (p ++ bs.map fun b => b.toNat % 64) := by
  induction bs with
  | nil => intro t IB h cur p hc _; exact ⟨t, IB, cur, rfl, h, by simpa using hc⟩
  | cons b bs ih =>
    intro t IB h cur p hc hp
    have hp' : StrictPrefix ((p ++ [b.toNat % 64]) ++ bs.map fun b => b.toNat % 64) := by simpa using hp
    obtain ⟨t1, IB1, c1, e1, h1, hc1⟩ := indexStep_spec h hc b (strictPrefix_of_append hp')
    obtain ⟨t2, IB2, c2, e2, h2, hc2⟩ := ih h1 hc1 hp'
    refine ⟨t2, IB2, c2, ?_, h2, by simpa using hc2⟩
    unfold indexLoop
    rw [e1]
    exact e2

/-- The bytes of a character outside ASCII, as 6-bit groups. -/
theorem encode_path (c : Char) (hc : 128 ≤ c.val.toNat) : ∃ nested pen fin,
    String.utf8EncodeChar c = nested ++ [pen, fin] ∧
    (nested.map fun b => b.toNat % 64) ++ [pen.toNat % 64] = pathOf (c.val.toNat / 64) ∧
    fin.toNat % 64 = c.val.toNat % 64 := by
  have hlt := isValidChar_lt (char_valid c)
  unfold String.utf8EncodeChar
  generalize c.val.toNat = n at hc hlt
  simp only
  rw [if_neg (by omega)]
  by_cases h1 : n ≤ 2047
  · rw [if_pos h1]
    refine ⟨[], _, _, rfl, ?_, ?_⟩
    · rcases pathOf_cases (n / 64) with ⟨_, e⟩ | ⟨_, _, e⟩ | ⟨_, e⟩
      · rw [e]; simp; omega
      · omega
      · omega
    · simp; omega
  · rw [if_neg h1]
    by_cases h2 : n ≤ 65535
    · rw [if_pos h2]
      refine ⟨[_], _, _, rfl, ?_, ?_⟩
      · rcases pathOf_cases (n / 64) with ⟨_, e⟩ | ⟨_, _, e⟩ | ⟨_, e⟩
        · omega
        · rw [e]; simp; omega
        · omega
      · simp; omega
    · rw [if_neg h2]
      refine ⟨[_, _], _, _, rfl, ?_, ?_⟩
      · rcases pathOf_cases (n / 64) with ⟨_, e⟩ | ⟨_, _, e⟩ | ⟨_, e⟩
        · omega
        · omega
        · rw [e]; simp; omega
      · simp; omega

/-- The character that a rune stands for when it is encoded: U+FFFD if it is not a Unicode scalar value. -/
def runeChar (r : Rune) : Char :=
  if 0 ≤ r.toInt ∧ r.toInt.toNat.isValidChar then Char.ofNat r.toInt.toNat else '\uFFFD'

theorem rune_bits (r : Rune) : (0 ≤ r.toInt ∧ r.toUInt32.toNat = r.toInt.toNat) ∨ (r.toInt < 0 ∧ 2 ^ 31 ≤ r.toUInt32.toNat) := by
  have e1 : r.toUInt32.toNat = r.toBitVec.toNat := rfl
  have e2 : r.toInt = r.toBitVec.toInt := rfl
  have := r.toBitVec.isLt
  rw [e1, e2, BitVec.toInt_eq_toNat_cond]
  split <;> omega

theorem EncodeRune_congr {r r' : Rune} (h : r.toUInt32.toNat = r'.toUInt32.toNat) : EncodeRune r = EncodeRune r' := by
  unfold EncodeRune
  rw [h]

theorem charOfNat_val {n : Nat} (h : n.isValidChar) : (Char.ofNat n).val.toNat = n := by
  unfold Char.ofNat
  rw [dif_pos h]
  show (Char.ofNatAux n h).val.toNat = n
  rfl

theorem toRune_bits {n : Nat} (h : n < 2 ^ 31) : (toRune (n : Int)).toUInt32.toNat = n := by
  have e : (toRune (n : Int)).toInt = n := by
    unfold toRune
    exact Int32.toInt_ofInt_of_le (by omega) (by omega)
  rcases rune_bits (toRune (n : Int)) with ⟨_, h1⟩ | ⟨h1, _⟩
  · rw [h1, e]; rfl
  · rw [e] at h1; omega

theorem EncodeRune_eq (r : Rune) : EncodeRune r = String.utf8EncodeChar (runeChar r) := by
  unfold runeChar
  by_cases hv : 0 ≤ r.toInt ∧ r.toInt.toNat.isValidChar
  · rw [if_pos hv, ← EncodeRune_char, charOfNat_val hv.2]
    apply EncodeRune_congr
    have := isValidChar_lt hv.2
    rw [toRune_bits (by omega)]
    rcases rune_bits r with ⟨_, h1⟩ | ⟨h1, _⟩
    · exact h1
    · omega
  · rw [if_neg hv]
    have e : String.utf8EncodeChar '\uFFFD' = [0xEF, 0xBF, 0xBD] := by decide
    rw [e]
    have hbad : 0x10FFFF < r.toUInt32.toNat ∨ (0xD800 ≤ r.toUInt32.toNat ∧ r.toUInt32.toNat ≤ 0xDFFF) := by
      rcases rune_bits r with ⟨h0, h1⟩ | ⟨_, h1⟩
      · rw [h1]
        apply Classical.byContradiction
        intro hn
        apply hv
        refine ⟨h0, ?_⟩
        unfold Nat.isValidChar
        omega
      · left; omega
    unfold EncodeRune
    simp only
    rw [if_neg (by omega), if_neg (by omega), if_pos hbad]

/-- `ensureProps` finds or makes the place of the property of a character. -/
theorem ensureProps_spec {t IB PB F} (h : Inv t IB PB F) (r : Rune) :
    ∃ t' IB' PB' i, ensureProps t r = .ok (t', 64 * i + (runeChar r).val.toNat % 64) ∧ Inv t' IB' PB' F ∧
      PB'[i]? = some ((runeChar r).val.toNat / 64) ∧
      (PB' = PB ∨ ((runeChar r).val.toNat / 64 ∉ PB ∧ PB' = PB ++ [(runeChar r).val.toNat / 64])) := by
  unfold ensureProps
  rw [EncodeRune_eq]
  generalize runeChar r = c
  by_cases hc : c.val.toNat < 128
  · have e : String.utf8EncodeChar c = [UInt8.ofNat c.val.toNat] := by
      unfold String.utf8EncodeChar
      simp only
      rw [if_pos (by omega)]
    refine ⟨t, IB, PB, c.val.toNat / 64, ?_, h, ?_, .inl rfl⟩
    · simp only [e, goIndex, bind, Except.bind]
      generalize c.val.toNat = n at hc
      simp
      omega
    · have : c.val.toNat / 64 = 0 ∨ c.val.toNat / 64 = 1 := by omega
      rcases this with e | e <;> rw [e]
      · exact h.ascii0
      · exact h.ascii1
  · obtain ⟨nested, pen, fin, e1, e2, e3⟩ := encode_path c (by omega)
    have hlt := isValidChar_lt (char_valid c)
    have hk : c.val.toNat / 64 < 17408 := by omega
    have hp : StrictPrefix ([] ++ nested.map fun b => b.toNat % 64) :=
      ⟨c.val.toNat / 64, _, [], by omega, hk, e2.symm⟩
    obtain ⟨t1, IB1, c1, a1, h1, hc1⟩ := indexLoop_spec nested h h.head hp
    obtain ⟨t2, PB2, i, a2, h2, hi, hPB⟩ := propStep_spec h1 hc1 pen (by omega) hk (by rw [← e2]; rfl)
    refine ⟨t2, IB1, PB2, i, ?_, h2, hi, hPB⟩
    rw [e1]
    have g1 : goSliceTo (nested ++ [pen, fin]) ((nested ++ [pen, fin]).length - 2) = .ok nested := by
      unfold goSliceTo
      rw [if_pos (by omega)]
      simp
    have g2 : goIndex (nested ++ [pen, fin]) ((nested ++ [pen, fin]).length - 2) = .ok pen := by
      apply goIndex_some
      simp
    have g3 : goIndex (nested ++ [pen, fin]) ((nested ++ [pen, fin]).length - 1) = .ok fin := by
      apply goIndex_some
      simp
    simp only [g1, g2, g3, bind, Except.bind, a1, a2]
    rw [if_neg (by simp), shl6, and63, e3]

/-- Writing to that place. -/
theorem inv_write {t IB PB F} (h : Inv t IB PB F) {i k j : Nat} (hi : PB[i]? = some k) (hj : j < 64) (v : UInt8) :
    Inv { t with rawProps := t.rawProps.set (64 * i + j) v } IB PB (fun c => if c = 64 * k + j then v else F c) := by
  have hil := (List.getElem?_eq_some_iff.mp hi).1
  refine ⟨h.head, h.nodupI, h.prefixI, h.ascii0, h.ascii1, h.nodupP, h.rangeP, h.lenI, by simp [h.lenP], h.slots, ?_, ?_,
    h.parentI, h.parentP⟩
  · intro i' k' j' hi' hj'
    simp only
    rw [List.getElem?_set]
    by_cases he : 64 * i + j = 64 * i' + j'
    · have e1 : i' = i := by omega
      have e2 : j' = j := by omega
      subst e1 e2
      rw [hi] at hi'
      simp only [Option.some.injEq] at hi'
      subst hi'
      rw [if_pos rfl, if_pos (by rw [h.lenP]; omega), if_pos rfl]
    · rw [if_neg he, h.vals i' k' j' hi' hj', if_neg]
      intro e
      have e1 : k' = k := by omega
      subst e1
      have := (List.getElem?_inj hil h.nodupP).mp (hi.trans hi'.symm)
      omega
  · intro c hc
    show (if c = 64 * k + j then v else F c) = 0
    rw [if_neg, h.rest c hc]
    intro e
    apply hc
    rw [e, show (64 * k + j) / 64 = k by omega]
    exact List.mem_of_getElem? hi

theorem inv_read {t IB PB F} (h : Inv t IB PB F) {i : Nat} {c : Char} (hi : PB[i]? = some (c.val.toNat / 64)) :
    t.rawProps[64 * i + c.val.toNat % 64]? = some (F c.val.toNat) := by
  rw [h.vals i _ _ hi (by omega), show 64 * (c.val.toNat / 64) + c.val.toNat % 64 = c.val.toNat by omega]

/-- Only blocks of characters that an operation addressed are added. -/
def Grows (PB PB' : List Nat) (c : Char) : Prop :=
  (PB' = PB ∨ PB' = PB ++ [c.val.toNat / 64]) ∧ c.val.toNat / 64 ∈ PB'

theorem set_spec {t IB PB F} (h : Inv t IB PB F) (r : Rune) (v : UInt8) :
    (v = 4 ∧ F (runeChar r).val.toNat ≠ 0 ∧ t.Set r v = .error (.explicit "conflicting properties")) ∨
    (¬ (v = 4 ∧ F (runeChar r).val.toNat ≠ 0) ∧ ∃ t' IB' PB', t.Set r v = .ok t' ∧
      Inv t' IB' PB' (fun c => if c = (runeChar r).val.toNat then v else F c) ∧ Grows PB PB' (runeChar r)) := by
  obtain ⟨t1, IB1, PB1, i, e1, h1, hi, hg⟩ := ensureProps_spec h r
  have hr := inv_read h1 hi
  have hil := (List.getElem?_eq_some_iff.mp hi).1
  unfold Tree.Set
  simp only [e1, bind, Except.bind, goIndex_some hr]
  by_cases hcf : v = 4 ∧ F (runeChar r).val.toNat ≠ 0
  · left
    rw [if_pos hcf]
    exact ⟨hcf.1, hcf.2, rfl⟩
  · right
    refine ⟨hcf, { t1 with rawProps := t1.rawProps.set (64 * i + (runeChar r).val.toNat % 64) v }, IB1, PB1, ?_, ?_, ?_⟩
    · rw [if_neg hcf, goSet_ok (by rw [h1.lenP]; omega)]
    · have := inv_write h1 hi (j := (runeChar r).val.toNat % 64) (by omega) v
      rwa [show 64 * ((runeChar r).val.toNat / 64) + (runeChar r).val.toNat % 64 = (runeChar r).val.toNat by omega] at this
    · rcases hg with hg | ⟨_, hg⟩
      · exact ⟨.inl hg, List.mem_of_getElem? hi⟩
      · exact ⟨.inr hg, List.mem_of_getElem? hi⟩

theorem or_spec {t IB PB F} (h : Inv t IB PB F) (r : Rune) (v : UInt8) :
    ∃ t' IB' PB', t.BitwiseOr r v = .ok t' ∧
      Inv t' IB' PB' (fun c => if c = (runeChar r).val.toNat then F c ||| v else F c) ∧ Grows PB PB' (runeChar r) := by
  obtain ⟨t1, IB1, PB1, i, e1, h1, hi, hg⟩ := ensureProps_spec h r
  have hr := inv_read h1 hi
  have hil := (List.getElem?_eq_some_iff.mp hi).1
  unfold Tree.BitwiseOr
  simp only [e1, bind, Except.bind, goIndex_some hr]
  refine ⟨{ t1 with rawProps := t1.rawProps.set (64 * i + (runeChar r).val.toNat % 64) (F (runeChar r).val.toNat ||| v) }, IB1, PB1, ?_, ?_, ?_⟩
  · rw [goSet_ok (by rw [h1.lenP]; omega)]
  · have := inv_write h1 hi (j := (runeChar r).val.toNat % 64) (by omega) (F (runeChar r).val.toNat ||| v)
    rw [show 64 * ((runeChar r).val.toNat / 64) + (runeChar r).val.toNat % 64 = (runeChar r).val.toNat by omega] at this
    have e : (fun c => if c = (runeChar r).val.toNat then F (runeChar r).val.toNat ||| v else F c) =
        (fun c => if c = (runeChar r).val.toNat then F c ||| v else F c) := by
      funext c
      by_cases hc : c = (runeChar r).val.toNat
      · rw [if_pos hc, if_pos hc, hc]
      · rw [if_neg hc, if_neg hc]
    rwa [e] at this
  · rcases hg with hg | ⟨_, hg⟩
    · exact ⟨.inl hg, List.mem_of_getElem? hi⟩
    · exact ⟨.inr hg, List.mem_of_getElem? hi⟩

end Textseg.Gen
