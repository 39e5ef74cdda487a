import Verif.Proofs.DataText
import Verif.Proofs.ConformanceTest
import Verif.Text.BreakTest
/-!
# The lines of GraphemeBreakTest.txt

A checker for the lines of that file, which the kernel evaluates, and its soundness.
-/

namespace Textseg.Gen
open Textseg Spec

/-- Scalar values (below 2^20). -/
def validN (v : Nat) : Bool := cond (Nat.ble 0xD800 v) (Nat.ble 0xE000 v) true

/-- The characters of the segment that begins here, and the segments after it. -/
def testN : Nat → Nat → Option (List Nat × List (List Nat))
  | 0, _ => none
  | f + 1, n =>
    let after := fun v m => cond (validN v)
      (cond (Nat.beq (Nat.mod m 0x10000000000) 0x2309B7C320) (some ([v], []))
      (cond (Nat.beq (Nat.mod m 0x100000000) 0x20B7C320)
        (match testN f (Nat.shiftRight m 32) with
        | some (seg, segs) => some ([v], seg :: segs)
        | none => none)
      (cond (Nat.beq (Nat.mod m 0x100000000) 0x2097C320)
        (match testN f (Nat.shiftRight m 32) with
        | some (seg, segs) => some (v :: seg, segs)
        | none => none) none))) none
    cond (Nat.beq (Nat.mod (Nat.shiftRight n 32) 256) 32) (hex4 n fun v => after v (Nat.shiftRight n 32))
      (hex5 n fun v => after v (Nat.shiftRight n 40))

/-- Whether these are the tokens of the text. -/
def segmentsOk (segs : List (List Char)) : Bool :=
  match tokens (utf8 segs.flatten) with
  | .ok ts => ts == segs.map utf8 && Nat.ble (utf8 segs.flatten).length 2049
  | _ => false

def chars (segs : List (List Nat)) : List (List Char) := segs.map fun s => s.map Char.ofNat

/-- 1024 bytes with the value 1 -/
def manyOnes : Nat := Nat.div (Nat.sub (Nat.pow 2 8192) 1) 255

/-- Whether the lines are comments and `count` test lines with the right segments. -/
def testsN : List Nat → Nat → Bool
  | [], count => Nat.beq count 0
  | n :: ns, count =>
    cond (lineN 8192 manyOnes n)
      (cond (Nat.beq (Nat.mod n 256) 35) (testsN ns count)
      (cond (Nat.beq (Nat.mod n 0x1000000) 0x20B7C3)
        (match testN 100 (Nat.shiftRight n 24) with
        | some (seg, segs) => cond (segmentsOk (chars (seg :: segs)))
          (match count with
          | 0 => false
          | count + 1 => testsN ns count) false
        | none => false) false)) false

set_option maxRecDepth 1000000 in
theorem tests_checked : testsN Text.breakTest.flatten 766 = true := by decide +kernel

theorem char_of_valid {v : Nat} (h : validN v = true) (hv : v < 2 ^ 20) : (Char.ofNat v).val.toNat = v := by
  have hc : v.isValidChar := by
    unfold validN at h
    unfold Nat.isValidChar
    cases hd : Nat.ble 0xD800 v
    · have : ¬ 0xD800 ≤ v := by rw [← Nat.ble_eq]; simp [hd]
      omega
    · rw [hd] at h
      have := Nat.ble_eq.mp h
      omega
  rw [Char.ofNat, dif_pos hc]
  rfl

/-- The text of the segments `seg :: segs`, of which the first space is missing, from here to the comment. -/
structure IsTest (n : Nat) (seg : List Char) (segs : List (List Char)) : Prop where
  ex : ∃ s r comment, textLine n = s ++ divisionSign ++ r ++ hash :: comment ∧ SegmentText (0x20 :: s) seg ∧
    SegmentsText r segs ∧ hash ∉ s ∧ hash ∉ r

theorem hash_digits {ds : List UInt8} (h : ∀ b ∈ ds, Plain b) : hash ∉ ds := fun hm => (h _ hm).2.2.1 rfl

theorem testN_sound : ∀ {f n : Nat} {seg : List Nat} {segs : List (List Nat)}, testN f n = some (seg, segs) →
    IsTest n (seg.map Char.ofNat) (chars segs)
  | 0, _, _, _, h => by cases h
  | f + 1, n, seg, segs, h => by
    rw [testN] at h
    have after : ∀ {w v a : Nat}, Numeral w n (Nat.shiftRight n a) v → w ≤ 5 →
        cond (validN v)
          (cond (Nat.beq (Nat.mod (Nat.shiftRight n a) 0x10000000000) 0x2309B7C320) (some ([v], []))
          (cond (Nat.beq (Nat.mod (Nat.shiftRight n a) 0x100000000) 0x20B7C320)
            (match testN f (Nat.shiftRight (Nat.shiftRight n a) 32) with
            | some (seg, segs) => some ([v], seg :: segs)
            | none => none)
          (cond (Nat.beq (Nat.mod (Nat.shiftRight n a) 0x100000000) 0x2097C320)
            (match testN f (Nat.shiftRight (Nat.shiftRight n a) 32) with
            | some (seg, segs) => some (v :: seg, segs)
            | none => none) none))) none = some (seg, segs) → IsTest n (seg.map Char.ofNat) (chars segs) := by
      intro w v a hn hw h
      obtain ⟨ds, h1, h2, h3, h4⟩ := hn
      obtain ⟨hv, h⟩ := cond_some h
      have hc := char_of_valid hv (Nat.lt_of_lt_of_le h4 (by
        rw [show (2 : Nat) ^ 20 = 16 ^ 5 from rfl]
        exact Nat.pow_le_pow_right (by omega) hw))
      have hd := hash_digits h3
      have hhex : IsHex ds (Char.ofNat v).val.toNat := by rw [hc]; exact h2
      have hpad : Padded ds (0x20 :: (ds ++ [0x20])) := padded_blanks h3 1 1
      rcases beq_cond h with ⟨c, h⟩ | ⟨_, h⟩
      · simp only [Option.some.injEq, Prod.mk.injEq] at h
        obtain ⟨rfl, rfl⟩ := h
        have e := shift_prefix [0x20, 0xC3, 0xB7, 0x09, 0x23] n a _ _ (by decide) rfl rfl c
        refine ⟨⟨ds ++ [0x20], [0x09], textLine (Nat.shiftRight n (a + 8 * [(0x20 : UInt8), 0xC3, 0xB7, 0x09, 0x23].length)), ?_,
          .last _ ds _ hhex hpad, .nil _ ⟨['\t'], by decide +kernel, by decide +kernel⟩, ?_,
          by decide⟩⟩
        · rw [h1, e]
          simp [divisionSign]
        · intro hm
          rcases List.mem_append.mp hm with hm | hm
          · exact hd hm
          · exact absurd (List.mem_singleton.mp hm) (by decide)
      rcases beq_cond h with ⟨c, h⟩ | ⟨_, h⟩
      · have e := shift_prefix [0x20, 0xC3, 0xB7, 0x20] n a _ _ (by decide) rfl rfl c
        split at h
        · rename_i seg' segs' ht
          simp only [Option.some.injEq, Prod.mk.injEq] at h
          obtain ⟨rfl, rfl⟩ := h
          obtain ⟨s, r, comment, k1, k2, k3, k4, k5⟩ := (testN_sound ht).ex
          rw [shift_shift] at k1
          refine ⟨⟨ds ++ [0x20], 0x20 :: (s ++ divisionSign ++ r), comment, ?_, .last _ ds _ hhex hpad, ?_, ?_, ?_⟩⟩
          · rw [h1, e, show a + 8 * [(0x20 : UInt8), 0xC3, 0xB7, 0x20].length = a + 32 from rfl, k1]
            simp [divisionSign]
          · have := SegmentsText.cons (0x20 :: s) r _ _ k2 k3
            rw [List.cons_append, List.cons_append] at this
            exact this
          · intro hm
            rcases List.mem_append.mp hm with hm | hm
            · exact hd hm
            · exact absurd (List.mem_singleton.mp hm) (by decide)
          · intro hm
            simp only [List.mem_cons, List.mem_append, List.not_mem_nil, or_false] at hm
            rcases hm with hm | (hm | hm | hm) | hm
            · exact absurd hm (by decide)
            · exact k4 hm
            · exact absurd hm (by decide)
            · exact absurd hm (by decide)
            · exact k5 hm
        · cases h
      obtain ⟨c, h⟩ := cond_some h
      have e := shift_prefix [0x20, 0xC3, 0x97, 0x20] n a _ _ (by decide) rfl rfl c
      split at h
      · rename_i seg' segs' ht
        simp only [Option.some.injEq, Prod.mk.injEq] at h
        obtain ⟨rfl, rfl⟩ := h
        obtain ⟨s, r, comment, k1, k2, k3, k4, k5⟩ := (testN_sound ht).ex
        rw [shift_shift] at k1
        refine ⟨⟨ds ++ [0x20] ++ multiplicationSign ++ 0x20 :: s, r, comment, ?_, ?_, k3, ?_, k5⟩⟩
        · rw [h1, e, show a + 8 * [(0x20 : UInt8), 0xC3, 0x97, 0x20].length = a + 32 from rfl, k1]
          simp [multiplicationSign]
        · have := SegmentText.cons (0x20 :: (ds ++ [0x20])) ds (0x20 :: s) _ _ hhex hpad k2
          simp only [List.cons_append, List.append_assoc, List.nil_append] at this ⊢
          exact this
        · intro hm
          simp only [List.mem_cons, List.mem_append, List.not_mem_nil, or_false] at hm
          rcases hm with ((hm | hm) | hm | hm) | hm | hm
          · exact hd hm
          · exact absurd hm (by decide)
          · exact absurd hm (by decide)
          · exact absurd hm (by decide)
          · exact absurd hm (by decide)
          · exact k4 hm
      · cases h
    rcases beq_cond h with ⟨_, h⟩ | ⟨_, h⟩
    · obtain ⟨v, h1, h2⟩ := hex4_sound h
      exact after h1 (by omega) h2
    · obtain ⟨v, h1, h2⟩ := hex5_sound h
      exact after h1 (by omega) h2

theorem manyOnes_bit : ∀ j : Fin 1024, manyOnes.testBit (8 * j.val) = true := by decide +kernel

theorem segmentsOk_sound {segs : List (List Char)} (h : segmentsOk segs = true) :
    IsSegmentation CharBoundary segs.flatten segs ∧ (utf8 segs.flatten).length ≤ 2049 := by
  unfold segmentsOk at h
  split at h
  · rename_i ts ht
    rw [Bool.and_eq_true, beq_iff_eq] at h
    exact ⟨(wanted_iff ht).mp h.1, Nat.ble_eq.mp h.2⟩
  · cases h

theorem testsN_sound : ∀ {ns : List Nat} {count : Nat}, testsN ns count = true → ∃ tests, tests.length = count ∧
    TestLinesMean (ns.map textLine) tests ∧
    (∀ segs ∈ tests, IsSegmentation CharBoundary segs.flatten segs ∧ (utf8 segs.flatten).length ≤ 2049) ∧
    ∀ n ∈ ns, newline ∉ textLine n ∧ carriageReturn ∉ textLine n ∧ (textLine n).length ≤ 1024
  | [], count, h => ⟨[], by rw [testsN] at h; exact (Nat.eq_of_beq_eq_true h).symm, .done, by simp, by simp⟩
  | n :: ns, count, h => by
    have split : ∀ {c x : Bool}, cond c x false = true → c = true ∧ x = true := by
      intro c x h
      cases c
      · cases h
      · exact ⟨rfl, h⟩
    rw [testsN.eq_def] at h
    simp only at h
    obtain ⟨hl, h⟩ := split h
    have hl := lineN_sound (k := 1024) (fun j hj => manyOnes_bit ⟨j, hj⟩) hl
    have lines : ∀ {ms : List Nat}, (∀ m ∈ ms, newline ∉ textLine m ∧ carriageReturn ∉ textLine m ∧ (textLine m).length ≤ 1024) →
        ∀ m ∈ n :: ms, newline ∉ textLine m ∧ carriageReturn ∉ textLine m ∧ (textLine m).length ≤ 1024 := by
      intro ms h m hm
      rcases List.mem_cons.mp hm with rfl | hm
      · exact hl
      · exact h m hm
    cases hc : Nat.beq (Nat.mod n 256) 35 with
    | true =>
      rw [hc] at h
      obtain ⟨tests, e, k1, k2, k3⟩ := testsN_sound h
      have hc : n % 256 = 35 := Nat.eq_of_beq_eq_true hc
      refine ⟨tests, e, .skip _ _ _ ⟨[], ⟨[], by simp, rfl⟩, by simp, .inr ⟨textLine (n / 256), ?_⟩⟩ k1, k2, lines k3⟩
      rw [textLine_cons n (by omega), hc]
      rfl
    | false =>
      rw [hc] at h
      obtain ⟨h0, h⟩ := split h
      have ht := fun seg segs (e : testN 100 (Nat.shiftRight n 24) = some (seg, segs)) => testN_sound e
      generalize testN 100 (Nat.shiftRight n 24) = o at h ht
      match o, h with
      | some (seg, segs), h =>
        simp only at h
        obtain ⟨hs, h⟩ := split h
        obtain ⟨hs1, hs2⟩ := segmentsOk_sound hs
        cases count with
        | zero => cases h
        | succ count =>
          obtain ⟨tests, e, k1, k2, k3⟩ := testsN_sound h
          obtain ⟨s, r, comment, t1, t2, t3, t4, t5⟩ := (ht seg segs rfl).ex
          refine ⟨_ :: tests, by rw [List.length_cons, e], .test _ _ _ (chars (seg :: segs)) ⟨by simp [chars], [], 0x20 :: (s ++ divisionSign ++ r),
            ⟨[], by simp, rfl⟩, ?_, ?_, .inr ⟨comment, ?_⟩⟩ k1, ?_, lines k3⟩
          · have := SegmentsText.cons (0x20 :: s) r _ _ t2 t3
            rw [List.cons_append, List.cons_append] at this
            exact this
          · intro hm
            simp only [List.mem_cons, List.mem_append, List.not_mem_nil, or_false, false_or] at hm
            rcases hm with (hm | hm) | hm | (hm | hm | hm) | hm
            · exact absurd hm (by decide)
            · exact absurd hm (by decide)
            · exact absurd hm (by decide)
            · exact t4 hm
            · exact absurd hm (by decide)
            · exact absurd hm (by decide)
            · exact t5 hm
          · have e := textLine_prefix [0xC3, 0xB7, 0x20] n (by decide) (Nat.eq_of_beq_eq_true h0)
            rw [e, show n / 256 ^ [(0xC3 : UInt8), 0xB7, 0x20].length = Nat.shiftRight n 24 from (Nat.shiftRight_eq_div_pow n 24).symm, t1]
            simp [divisionSign]
          · intro x hx
            rcases List.mem_cons.mp hx with rfl | hx
            · exact ⟨hs1, hs2⟩
            · exact k2 x hx
      | none, h => cases h

end Textseg.Gen
