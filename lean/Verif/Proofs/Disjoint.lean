import Verif.Proofs.Tokens
/-!
# The ranges of each data file are disjoint; decoding of sequences
-/

namespace Textseg
open Spec

/-- Between `k` and `k + 2^d`, every code point is in at most one range of the list (bisection; for the kernel). -/
def uniqNode {α : Type} : (d k : Nat) → List (Nat × Nat × α) → Bool
  | 0, _, [] => true
  | 0, _, [_] => true
  | 0, _, _ => false
  | _ + 1, _, [] => true
  | _ + 1, _, [_] => true
  | d + 1, k, rs =>
    cond (uniqNode d k (restrict k (Nat.sub (Nat.add k (Nat.pow 2 d)) 1) rs))
      (uniqNode d (Nat.add k (Nat.pow 2 d)) (restrict (Nat.add k (Nat.pow 2 d)) (Nat.add k (Nat.pow 2 (Nat.succ d))) rs)) false

theorem mem_restrict {α : Type} {lo hi c : Nat} (h1 : lo ≤ c) (h2 : c ≤ hi) {rs : List (Nat × Nat × α)} {r}
    (hr : r ∈ rs) (h3 : r.1 ≤ c) (h4 : c ≤ r.2.1) : r ∈ restrict lo hi rs := by
  induction rs with
  | nil => cases hr
  | cons a rs ih =>
    rw [restrict]
    rcases List.mem_cons.mp hr with rfl | hr
    · rw [Nat.ble_eq.mpr (by omega), Nat.ble_eq.mpr (by omega)]
      exact List.mem_cons_self
    · have := ih hr
      cases Nat.ble a.1 hi <;> cases Nat.ble lo a.2.1 <;> simp [this]

theorem uniqNode_sound {α : Type} {d k : Nat} {rs : List (Nat × Nat × α)} (h : uniqNode d k rs = true) {c lo hi : Nat}
    {v : α} (hk : k ≤ c) (hk' : c < k + 2 ^ d) (hm : (lo, hi, v) ∈ rs) (h1 : lo ≤ c) (h2 : c ≤ hi) :
    lookupRange c rs = some v := by
  have single : ∀ r : Nat × Nat × α, (lo, hi, v) ∈ [r] → lookupRange c [r] = some v := by
    intro r hr
    cases List.mem_singleton.mp hr
    rw [lookupRange, if_pos ⟨h1, h2⟩]
  induction d generalizing k rs with
  | zero =>
    match rs with
    | [] => cases hm
    | [r] => exact single r hm
    | _ :: _ :: _ => cases h
  | succ d ih =>
    match rs with
    | [] => cases hm
    | [r] => exact single r hm
    | a :: b :: rs =>
      rw [uniqNode] at h
      · simp only [Nat.add_eq, Nat.sub_eq, Nat.pow_eq, Nat.succ_eq_add_one] at h
        cases hl : uniqNode d k (restrict k (k + 2 ^ d - 1) (a :: b :: rs))
        · rw [hl] at h; cases h
        · rw [hl, cond_true] at h
          by_cases hc : c < k + 2 ^ d
          · have h3 : c ≤ k + 2 ^ d - 1 := by omega
            rw [← lookupRange_restrict hk h3]
            exact ih hl hk hc (mem_restrict hk h3 hm h1 h2)
          · have h3 : c ≤ k + 2 ^ (d + 1) := by omega
            rw [← lookupRange_restrict (Nat.le_of_not_lt hc) h3]
            exact ih h (Nat.le_of_not_lt hc) (by rw [Nat.pow_succ] at hk'; omega) (mem_restrict (Nat.le_of_not_lt hc) h3 hm h1 h2)
      · simp
      · simp

/-- All ranges end below 2^21. -/
def boundedB {α : Type} : List (Nat × Nat × α) → Bool
  | [] => true
  | r :: rs => cond (Nat.ble r.2.1 1114111) (boundedB rs) false

theorem boundedB_sound {α : Type} {rs : List (Nat × Nat × α)} (h : boundedB rs = true) {r} (hr : r ∈ rs) :
    r.2.1 ≤ 1114111 := by
  induction rs with
  | nil => cases hr
  | cons a rs ih =>
    rw [boundedB] at h
    cases hb : Nat.ble a.2.1 1114111
    · rw [hb] at h; cases h
    · rw [hb] at h
      rcases List.mem_cons.mp hr with rfl | hr
      · exact Nat.ble_eq.mp hb
      · exact ih h hr

/-- The check of one data file. -/
def disjointB {α : Type} (rs : List (Nat × Nat × α)) : Bool := cond (boundedB rs) (uniqNode 21 0 rs) false

theorem lookupRange_of_mem {α : Type} {c lo hi : Nat} {v : α} {rs : List (Nat × Nat × α)} (hd : disjointB rs = true)
    (h : (lo, hi, v) ∈ rs) (h1 : lo ≤ c) (h2 : c ≤ hi) : lookupRange c rs = some v := by
  unfold disjointB at hd
  cases hb : boundedB rs
  · rw [hb] at hd; cases hd
  · rw [hb] at hd
    have := boundedB_sound hb h
    exact uniqNode_sound hd (Nat.zero_le _) (by simp only at this; omega) h h1 h2

theorem lookupRange_none {α : Type} {c : Nat} {rs : List (Nat × Nat × α)}
    (h : ∀ lo hi v, (lo, hi, v) ∈ rs → ¬ (lo ≤ c ∧ c ≤ hi)) : lookupRange c rs = none := by
  induction rs with
  | nil => rfl
  | cons a rs ih =>
    obtain ⟨lo, hi, v⟩ := a
    rw [lookupRange, if_neg (h lo hi v List.mem_cons_self)]
    exact ih fun lo hi v hm => h lo hi v (List.mem_cons_of_mem _ hm)

theorem lookupRange_isSome {c : Nat} {rs : List (Nat × Nat × Unit)} :
    (lookupRange c rs).isSome = true ↔ ∃ lo hi, (lo, hi, ()) ∈ rs ∧ lo ≤ c ∧ c ≤ hi := by
  induction rs with
  | nil => simp [lookupRange]
  | cons a rs ih =>
    obtain ⟨lo, hi, v⟩ := a
    rw [lookupRange]
    split
    · rename_i h
      exact ⟨fun _ => ⟨lo, hi, List.mem_cons_self, h⟩, fun _ => rfl⟩
    · rename_i h
      rw [ih]
      constructor
      · rintro ⟨lo', hi', h1, h2⟩
        exact ⟨lo', hi', List.mem_cons_of_mem _ h1, h2⟩
      · rintro ⟨lo', hi', h1, h2⟩
        rcases List.mem_cons.mp h1 with h1 | h1
        · cases h1; exact absurd h2 h
        · exact ⟨lo', hi', h1, h2⟩

theorem gcb_disjoint : disjointB graphemeBreakProperty = true := by decide +kernel
theorem incb_disjoint : disjointB indicConjunctBreak = true := by decide +kernel

theorem announced_le {b : UInt8} {n : Nat} (h : announced b = some n) : n ≤ 4 := by
  unfold announced at h
  split at h <;> (try split at h) <;> (try split at h) <;> (try split at h) <;> (try split at h) <;> simp at h <;> omega

theorem announced_pos {b : UInt8} {n : Nat} (h : announced b = some n) : 1 ≤ n := by
  unfold announced at h
  split at h <;> (try split at h) <;> (try split at h) <;> (try split at h) <;> (try split at h) <;> simp at h <;> omega

theorem decoded_encode (c : Char) :
    ¬ (((String.utf8EncodeChar c).length = 2 ∧ decoded (String.utf8EncodeChar c) < 0x80) ∨
      ((String.utf8EncodeChar c).length = 3 ∧ decoded (String.utf8EncodeChar c) < 0x800) ∨
      ((String.utf8EncodeChar c).length = 4 ∧ decoded (String.utf8EncodeChar c) < 0x10000) ∨
      (0xD800 ≤ decoded (String.utf8EncodeChar c) ∧ decoded (String.utf8EncodeChar c) ≤ 0xDFFF) ∨
      0x10FFFF < decoded (String.utf8EncodeChar c)) := by
  have hc : c.val.toNat.isValidChar := char_valid c
  unfold Nat.isValidChar at hc
  simp only [String.utf8EncodeChar]
  generalize c.val.toNat = v at *
  split
  · simp only [decoded, List.length_cons, List.length_nil, UInt8.toNat_ofNat', Nat.reducePow]; omega
  · split
    · simp only [decoded, List.length_cons, List.length_nil, UInt8.toNat_ofNat', Nat.reducePow]; omega
    · split
      · simp only [decoded, List.length_cons, List.length_nil, UInt8.toNat_ofNat', Nat.reducePow]; omega
      · simp only [decoded, List.length_cons, List.length_nil, UInt8.toNat_ofNat', Nat.reducePow]; omega

theorem encode_decoded {bs : List UInt8} (hs : IsSeq bs)
    (h : ¬ ((bs.length = 2 ∧ decoded bs < 0x80) ∨ (bs.length = 3 ∧ decoded bs < 0x800) ∨
      (bs.length = 4 ∧ decoded bs < 0x10000) ∨ (0xD800 ≤ decoded bs ∧ decoded bs ≤ 0xDFFF) ∨ 0x10FFFF < decoded bs)) :
    ∃ c : Char, String.utf8EncodeChar c = bs := by
  have key : ∀ n : Nat, n.isValidChar → (∀ ch : Char, ch.val.toNat = n → String.utf8EncodeChar ch = bs) →
      ∃ c : Char, String.utf8EncodeChar c = bs := by
    intro n hn h
    obtain ⟨ch, hch⟩ := char_exists hn
    exact ⟨ch, h ch hch⟩
  refine key (decoded bs) (by unfold Nat.isValidChar; omega) ?_
  intro ch hch
  simp only [String.utf8EncodeChar, hch]
  clear hch key
  obtain ⟨n, hn⟩ : ∃ n, decoded bs = n := ⟨_, rfl⟩
  rw [hn] at h ⊢
  cases hs with
  | one b hb =>
    have hb' : b.toNat ≤ 127 := hb
    clear h
    simp only [decoded] at hn
    rw [if_pos (by omega), u8_eq (b := b) hn.symm]
  | two b c h1 h2 h3 =>
    have b1 : 0xC0 ≤ b.toNat := h1
    have b2 : b.toNat ≤ 0xDF := h2
    have c1 : 0x80 ≤ c.toNat := h3.1
    have c2 : c.toNat ≤ 0xBF := h3.2
    have l1 : ¬ n < 0x80 := fun x => h (Or.inl ⟨rfl, x⟩)
    have l2 : ¬ (0xD800 ≤ n ∧ n ≤ 0xDFFF) := fun x => h (Or.inr (Or.inr (Or.inr (Or.inl x))))
    have l3 : ¬ 0x10FFFF < n := fun x => h (Or.inr (Or.inr (Or.inr (Or.inr x))))
    clear h
    simp only [decoded] at hn
    rw [if_neg (by omega), if_pos (by omega), u8_eq (b := b) (by omega), u8_eq (b := c) (by omega)]
  | three b c d h1 h2 h3 h4 =>
    have b1 : 0xE0 ≤ b.toNat := h1
    have b2 : b.toNat ≤ 0xEF := h2
    have c1 : 0x80 ≤ c.toNat := h3.1
    have c2 : c.toNat ≤ 0xBF := h3.2
    have d1 : 0x80 ≤ d.toNat := h4.1
    have d2 : d.toNat ≤ 0xBF := h4.2
    have l1 : ¬ n < 0x800 := fun x => h (Or.inr (Or.inl ⟨rfl, x⟩))
    have l2 : ¬ (0xD800 ≤ n ∧ n ≤ 0xDFFF) := fun x => h (Or.inr (Or.inr (Or.inr (Or.inl x))))
    have l3 : ¬ 0x10FFFF < n := fun x => h (Or.inr (Or.inr (Or.inr (Or.inr x))))
    clear h
    simp only [decoded] at hn
    rw [if_neg (by omega), if_neg (by omega), if_pos (by omega), u8_eq (b := b) (by omega), u8_eq (b := c) (by omega),
      u8_eq (b := d) (by omega)]
  | four b c d e h1 h2 h3 h4 h5 =>
    have b1 : 0xF0 ≤ b.toNat := h1
    have b2 : b.toNat ≤ 0xF7 := h2
    have c1 : 0x80 ≤ c.toNat := h3.1
    have c2 : c.toNat ≤ 0xBF := h3.2
    have d1 : 0x80 ≤ d.toNat := h4.1
    have d2 : d.toNat ≤ 0xBF := h4.2
    have e1 : 0x80 ≤ e.toNat := h5.1
    have e2 : e.toNat ≤ 0xBF := h5.2
    have l1 : ¬ n < 0x10000 := fun x => h (Or.inr (Or.inr (Or.inl ⟨rfl, x⟩)))
    have l2 : ¬ (0xD800 ≤ n ∧ n ≤ 0xDFFF) := fun x => h (Or.inr (Or.inr (Or.inr (Or.inl x))))
    have l3 : ¬ 0x10FFFF < n := fun x => h (Or.inr (Or.inr (Or.inr (Or.inr x))))
    clear h
    simp only [decoded] at hn
    rw [if_neg (by omega), if_neg (by omega), if_neg (by omega), u8_eq (b := b) (by omega), u8_eq (b := c) (by omega),
      u8_eq (b := d) (by omega), u8_eq (b := e) (by omega)]

end Textseg
