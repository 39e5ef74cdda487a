import Verif.Model.TrimSpace
import Verif.Proofs.UCDParse
import Verif.Proofs.Runes
/-!
# The code of bytes.TrimSpace removes the padding, so it agrees with the simplified `TrimSpace`
-/

namespace Textseg.Proofs
open Textseg Textseg.Spec

/-! ## Decoding from the front -/

theorem isSpace_char (c : Char) : IsSpace c.val.toNat = true ↔ c ∈ whiteSpace := by
  have h : ∀ n : Nat, IsSpace n = true ↔ n ∈ whiteSpace.map (fun c => c.val.toNat) := by
    intro n
    have : whiteSpace.map (fun c => c.val.toNat) = [0x09, 0x0A, 0x0B, 0x0C, 0x0D, 0x20, 0x85, 0xA0, 0x1680, 0x2000, 0x2001, 0x2002,
      0x2003, 0x2004, 0x2005, 0x2006, 0x2007, 0x2008, 0x2009, 0x200A, 0x2028, 0x2029, 0x202F, 0x205F, 0x3000] := by decide +kernel
    rw [this]
    simp only [List.mem_cons, List.not_mem_nil, or_false]
    unfold IsSpace
    split <;> simp <;> omega
  rw [h, List.mem_map]
  constructor
  · rintro ⟨d, hd, e⟩
    have : d = c := Char.ext (UInt32.toNat_inj.mp e)
    exact this ▸ hd
  · exact fun hc => ⟨c, hc, rfl⟩

theorem isSpace_error : IsSpace RuneError = false := by decide +kernel

/-- What Go sees at the front: a character, or a byte that is not part of one. -/
theorem decode_front {s : List UInt8} (h : s ≠ []) :
    (∃ c r, s = utf8 [c] ++ r ∧ DecodeRune s = (c.val.toNat, (utf8 [c]).length)) ∨
    (NoChar s ∧ DecodeRune s = (RuneError, 1)) := by
  by_cases hc : ∃ c rest', s = utf8 [c] ++ rest'
  · obtain ⟨c, r, rfl⟩ := hc
    refine Or.inl ⟨c, r, rfl, ?_⟩
    have := decodeRune_char c r
    exact this
  · cases s with
    | nil => exact absurd rfl h
    | cons b rest => exact Or.inr ⟨hc, decodeRune_bad b rest hc⟩

theorem ascii_char {b : UInt8} (h : b < 0x80) : ∃ c : Char, utf8 [c] = [b] ∧ c.val.toNat = b.toNat := by
  have hb : b.toNat < 128 := h
  have hg : Shortest [b] := by simp only [Shortest, decoded, List.length_cons, List.length_nil]; omega
  obtain ⟨c, hc⟩ := seq_char (.one b (by show b.toNat ≤ 127; omega)) hg
  refine ⟨c, hc.symm, ?_⟩
  have := decodeRune_char c []
  rw [← hc] at this
  have h2 : DecodeRune [b] = (b.toNat, 1) := by simp [DecodeRune, h]
  rw [List.append_nil, h2] at this
  exact (congrArg Prod.fst this).symm

/-- The `r` and `wid` of `indexFunc`: `DecodeRune` also for ASCII. -/
theorem decode_ascii {b : UInt8} {rest : List UInt8} :
    (if 0x80 ≤ b then DecodeRune (b :: rest) else (b.toNat, 1)) = DecodeRune (b :: rest) := by
  by_cases h : 0x80 ≤ b
  · rw [if_pos h]
  · rw [if_neg h]
    have : b < 0x80 := UInt8.not_le.mp h
    simp [DecodeRune, this]

theorem decode_space {w : List UInt8} (hw : w ∈ spaceSequences) (s : List UInt8) :
    ∃ r, DecodeRune (w ++ s) = (r, w.length) ∧ IsSpace r = true := by
  obtain ⟨c, hc, rfl⟩ := mem_space.mp hw
  have := decodeRune_char c s
  exact ⟨_, this, (isSpace_char c).mpr hc⟩

theorem decode_nospace {s : List UInt8} (hs : s ≠ []) (h : leadingSpace s = 0) : IsSpace (DecodeRune s).1 = false := by
  rcases decode_front hs with ⟨c, r, rfl, h2⟩ | ⟨_, h2⟩
  · rw [h2]
    refine Bool.eq_false_iff.mpr fun hsp => ?_
    have hm : utf8 [c] ∈ spaceSequences := mem_space.mpr ⟨c, (isSpace_char c).mp hsp, rfl⟩
    rw [leadingSpace_append hm] at h
    have := space_length hm
    omega
  · rw [h2]; exact isSpace_error

theorem goSliceFrom_append {a b : List UInt8} : goSliceFrom (a ++ b) a.length = .ok b := by
  simp [goSliceFrom]

theorem goSliceTo_append {a b : List UInt8} : goSliceTo (a ++ b) a.length = .ok a := by
  simp [goSliceTo]

theorem goIndex_append {a b : List UInt8} {x : UInt8} : goIndex (a ++ x :: b) a.length = .ok x := by
  simp [goIndex]

theorem indexFunc_spec {w t : List UInt8} (hw : Spaces w) (h0 : leadingSpace t = 0) : ∀ (fuel : Nat) (pre : List UInt8),
    (w ++ t).length < fuel →
    indexFunc (pre ++ (w ++ t)) fuel pre.length = .ok (if t = [] then -1 else ((pre ++ w).length : Int)) := by
  induction hw with
  | nil =>
    intro fuel pre hf
    obtain ⟨fuel, rfl⟩ : ∃ f, fuel = f + 1 := ⟨fuel - 1, by omega⟩
    unfold indexFunc
    cases t with
    | nil => simp
    | cons b t =>
      have hd := decode_nospace (s := b :: t) (by simp) h0
      rw [if_pos (by simp)]
      simp only [List.nil_append, goIndex_append, goSliceFrom_append, bind, Except.bind, decode_ascii]
      rw [if_pos hd]
      simp
  | cons u w hu _ ih =>
    intro fuel pre hf
    obtain ⟨fuel, rfl⟩ : ∃ f, fuel = f + 1 := ⟨fuel - 1, by omega⟩
    obtain ⟨r, hr, hs⟩ := decode_space hu (w ++ t)
    have hl := space_length hu
    unfold indexFunc
    cases u with
    | nil => simp at hl
    | cons b u =>
      rw [if_pos (by simp)]
      simp only [List.cons_append, List.append_assoc, goIndex_append, goSliceFrom_append, bind, Except.bind, decode_ascii]
      simp only [List.cons_append, List.append_assoc] at hr
      rw [hr]
      simp only [hs, Bool.true_eq_false, if_false]
      have := ih fuel (pre ++ b :: u) (by simp only [List.length_append, List.length_cons] at hf ⊢; omega)
      simp only [List.append_assoc, List.cons_append, List.length_append, List.length_cons] at this ⊢
      exact this

theorem TrimLeftFunc_spec {w t : List UInt8} (hw : Spaces w) (h0 : leadingSpace t = 0) : TrimLeftFunc (w ++ t) = .ok t := by
  have := indexFunc_spec hw h0 ((w ++ t).length + 1) [] (by omega)
  simp only [List.nil_append, List.length_nil] at this
  unfold TrimLeftFunc
  simp only [this, bind, Except.bind]
  by_cases ht : t = []
  · subst ht; simp
  · simp only [if_neg ht]
    rw [if_neg (by omega)]
    simp only [Int.toNat_natCast]
    exact goSliceFrom_append

/-! ## Decoding from the end -/

theorem runeStart_iff (b : UInt8) : RuneStart b = false ↔ IsCont b := by
  have key : ∀ n : Fin 256, RuneStart (UInt8.ofNat n) = false ↔ (0x80 ≤ n.val ∧ n.val ≤ 0xBF) := by decide +kernel
  have := key ⟨b.toNat, b.toNat_lt⟩
  simp only [UInt8.ofNat_toNat] at this
  rw [this]
  rfl

theorem lastRuneLoop_conts (x : List UInt8) (b : UInt8) (hb : RuneStart b = true) (lim : Int) :
    ∀ (conts tl : List UInt8) (fuel : Nat), (∀ y ∈ conts, IsCont y) → lim ≤ x.length → conts.length < fuel →
    lastRuneLoop (x ++ b :: conts ++ tl) lim fuel ((x.length : Int) + conts.length) = .ok x.length := by
  intro conts
  obtain ⟨rc, rfl⟩ : ∃ rc, conts = rc.reverse := ⟨conts.reverse, by simp⟩
  induction rc with
  | nil =>
    intro tl fuel _ hl hf
    obtain ⟨fuel, rfl⟩ : ∃ f, fuel = f + 1 := ⟨fuel - 1, by omega⟩
    unfold lastRuneLoop
    rw [if_pos (by simpa using hl)]
    have : goIndex (x ++ [b] ++ tl) ((x.length : Int) + (List.length ([] : List UInt8))).toNat = .ok b := by
      have e : ((x.length : Int) + (List.length ([] : List UInt8))).toNat = x.length := by simp
      rw [e, List.append_assoc]
      exact goIndex_append
    simp only [List.reverse_nil, this, bind, Except.bind, hb, if_true]
    simp
  | cons y rc ih =>
    intro tl fuel hc hl hf
    rw [List.reverse_cons] at hc hf ⊢
    generalize rc.reverse = conts at *
    obtain ⟨fuel, rfl⟩ : ∃ f, fuel = f + 1 := ⟨fuel - 1, by omega⟩
    unfold lastRuneLoop
    have hidx : goIndex (x ++ b :: (conts ++ [y]) ++ tl) ((x.length : Int) + (conts ++ [y]).length).toNat = .ok y := by
      have e : ((x.length : Int) + (conts ++ [y]).length).toNat = (x ++ b :: conts).length := by simp; omega
      rw [e, show x ++ b :: (conts ++ [y]) ++ tl = (x ++ b :: conts) ++ y :: tl by simp]
      exact goIndex_append
    rw [if_pos (by simp; omega)]
    have hy : RuneStart y = false := (runeStart_iff y).mpr (hc y (by simp))
    simp only [hidx, bind, Except.bind, hy]
    have := ih (y :: tl) fuel (fun z hz => hc z (by simp [hz])) hl (by simp at hf; omega)
    rw [show x ++ b :: (conts ++ [y]) ++ tl = x ++ b :: conts ++ y :: tl by simp,
      show (x.length : Int) + (conts ++ [y]).length - 1 = x.length + conts.length by simp; omega]
    exact this

theorem lastRuneLoop_total (p : List UInt8) (lim : Int) (hl : 0 ≤ lim) : ∀ (fuel : Nat) (start : Int), start < p.length →
    lim - 1 ≤ start → start - lim + 1 < fuel →
    ∃ st, lastRuneLoop p lim fuel start = .ok st ∧ st ≤ start ∧ lim - 1 ≤ st := by
  intro fuel
  induction fuel with
  | zero => intro start h1 h2 h3; exfalso; simp at h3; omega
  | succ fuel ih =>
    intro start h1 h2 h3
    unfold lastRuneLoop
    by_cases hs : lim ≤ start
    · rw [if_pos hs]
      have : start.toNat < p.length := by omega
      simp only [goIndex, List.getElem?_eq_getElem this, bind, Except.bind]
      by_cases hr : RuneStart p[start.toNat] = true
      · simp only [hr, if_true]; exact ⟨start, rfl, Int.le_refl _, h2⟩
      · simp only [hr, if_false]
        obtain ⟨st, h4, h5, h6⟩ := ih (start - 1) (by omega) (by omega) (by push_cast at h3; omega)
        exact ⟨st, h4, by omega, h6⟩
    · rw [if_neg hs]; exact ⟨start, rfl, Int.le_refl _, h2⟩

/-- The last byte of an encoded character, and the bytes before it. -/
theorem char_shape (c : Char) : (∃ b, utf8 [c] = [b] ∧ b < 0x80) ∨
    ∃ b conts y, utf8 [c] = b :: (conts ++ [y]) ∧ RuneStart b = true ∧ (∀ z ∈ conts, IsCont z) ∧ IsCont y ∧ conts.length ≤ 2 := by
  have h := isSeq_encode c
  rw [← utf8_one] at h
  generalize utf8 [c] = bs at h
  have start : ∀ b : UInt8, 0xC0 ≤ b.toNat → RuneStart b = true := fun b hb => by
    refine Bool.not_eq_false _ ▸ fun hf => ?_
    have hi : b.toNat ≤ 0xBF := ((runeStart_iff b).mp hf).2
    omega
  cases h with
  | one b hb =>
    refine Or.inl ⟨b, rfl, ?_⟩
    have : b.toNat ≤ 0x7F := hb
    show b.toNat < 128
    omega
  | two b c h1 _ h2 => exact Or.inr ⟨b, [], c, rfl, start b h1, by simp, h2, by simp⟩
  | three b c d h1 _ h2 h3 =>
    have h1' : 0xE0 ≤ b.toNat := h1
    exact Or.inr ⟨b, [c], d, rfl, start b (by omega), by simp [h2], h3, by simp⟩
  | four b c d e h1 _ h2 h3 h4 =>
    have h1' : 0xF0 ≤ b.toNat := h1
    exact Or.inr ⟨b, [c, d], e, rfl, start b (by omega), by simp [h2, h3], h4, by simp⟩

theorem cont_ge {y : UInt8} (h : IsCont y) : ¬ y < 0x80 := by
  have h1 : 0x80 ≤ y.toNat := h.1
  intro h2
  have h2' : y.toNat < 0x80 := h2
  omega

theorem goIndex_last {q : List UInt8} {y : UInt8} : goIndex (q ++ [y]) (((q ++ [y]).length : Int) - 1).toNat = .ok y := by
  have e : (((q ++ [y]).length : Int) - 1).toNat = q.length := by simp
  rw [e]; exact goIndex_append

/-- `DecodeLastRune` finds the character at the end. -/
theorem decodeLast_char (x : List UInt8) (c : Char) :
    DecodeLastRune (x ++ utf8 [c]) = .ok (c.val.toNat, (utf8 [c]).length) := by
  rcases char_shape c with ⟨b, hb, hlt⟩ | ⟨b, conts, y, he, hb, hc, hy, hl⟩
  · have hv : c.val.toNat = b.toNat := by
      have := decodeRune_char c []
      rw [hb, List.append_nil] at this
      have h2 : DecodeRune [b] = (b.toNat, 1) := by simp [DecodeRune, hlt]
      rw [h2] at this
      exact (congrArg Prod.fst this).symm
    rw [hb, hv]
    unfold DecodeLastRune
    simp only []
    rw [if_neg (by simp), goIndex_last]
    simp only [bind, Except.bind, if_pos hlt]
    rfl
  · have hdec := decodeRune_char c []
    rw [List.append_nil] at hdec
    have hloop := lastRuneLoop_conts x b hb
      (if (((x ++ utf8 [c]).length : Nat) : Int) - 4 < 0 then 0 else (((x ++ utf8 [c]).length : Nat) : Int) - 4) conts [y] 5 hc
      (by rw [he]; split <;> simp <;> omega) (by omega)
    have hgi : goIndex (x ++ utf8 [c]) (((x ++ utf8 [c]).length : Int) - 1).toNat = .ok y := by
      rw [he, show x ++ b :: (conts ++ [y]) = (x ++ b :: conts) ++ [y] by simp]
      exact goIndex_last
    unfold DecodeLastRune
    simp only []
    rw [if_neg (by rw [he]; simp), hgi]
    simp only [bind, Except.bind, if_neg (cont_ge hy)]
    rw [show x ++ b :: conts ++ [y] = x ++ utf8 [c] by rw [he]; simp] at hloop
    rw [show (((x ++ utf8 [c]).length : Nat) : Int) - 1 - 1 = (x.length : Int) + conts.length by rw [he]; simp; omega]
    rw [hloop]
    simp only []
    rw [if_neg (by omega)]
    simp only [Int.toNat_natCast, goSliceFrom_append, hdec]
    rw [if_neg (by simp)]

/-- What `DecodeLastRune` sees at the end. -/
theorem decodeLast_end {p : List UInt8} (h : p ≠ []) :
    (∃ x c, p = x ++ utf8 [c] ∧ DecodeLastRune p = .ok (c.val.toNat, (utf8 [c]).length)) ∨
    ((¬ ∃ x c, p = x ++ utf8 [c]) ∧ DecodeLastRune p = .ok (RuneError, 1)) := by
  by_cases hx : ∃ x c, p = x ++ utf8 [c]
  · obtain ⟨x, c, rfl⟩ := hx
    exact Or.inl ⟨x, c, rfl, decodeLast_char x c⟩
  · refine Or.inr ⟨hx, ?_⟩
    obtain ⟨q, y, rfl⟩ : ∃ q y, p = q ++ [y] := ⟨p.dropLast, p.getLast h, (List.dropLast_concat_getLast h).symm⟩
    have hy : ¬ y < 0x80 := fun hy => by
      obtain ⟨c, hc, _⟩ := ascii_char hy
      exact hx ⟨q, c, by rw [hc]⟩
    unfold DecodeLastRune
    simp only []
    rw [if_neg (by simp), goIndex_last]
    simp only [bind, Except.bind, if_neg hy]
    obtain ⟨st, h1, h2, h3⟩ := lastRuneLoop_total (q ++ [y])
      (if (((q ++ [y]).length : Nat) : Int) - 4 < 0 then 0 else (((q ++ [y]).length : Nat) : Int) - 4) (by split <;> omega) 5
      ((((q ++ [y]).length : Nat) : Int) - 1 - 1) (by omega) (by split <;> simp at * <;> omega) (by split <;> simp at * <;> omega)
    rw [h1]
    simp only []
    have hst : ∃ n : Nat, (if st < 0 then 0 else st) = (n : Int) ∧ n < (q ++ [y]).length := by
      refine ⟨(if st < 0 then 0 else st).toNat, ?_, ?_⟩ <;> split <;> simp at * <;> omega
    obtain ⟨n, hn, hlt⟩ := hst
    rw [hn]
    simp only [Int.toNat_natCast, goSliceFrom]
    rw [if_pos (by omega)]
    simp only []
    have hne : (q ++ [y]).drop n ≠ [] := by
      intro e
      have := congrArg List.length e
      rw [List.length_drop] at this
      simp at this hlt; omega
    rcases decode_front hne with ⟨c, r, h4, h5⟩ | ⟨_, h5⟩
    · rw [h5]
      simp only []
      rw [if_pos]
      intro e
      have hlen : (utf8 [c]).length + r.length = (q ++ [y]).length - n := by
        rw [← List.length_append, ← h4, List.length_drop]
      have : r = [] := List.eq_nil_of_length_eq_zero (by omega)
      subst this
      refine hx ⟨(q ++ [y]).take n, c, ?_⟩
      rw [List.append_nil] at h4
      rw [← h4, List.take_append_drop]
    · rw [h5]
      simp only [ite_self]

/-- The `r` and `size` of `lastIndexFunc`: `DecodeLastRune` also for ASCII. -/
theorem decodeLast_ascii {q : List UInt8} {y : UInt8} :
    (if 0x80 ≤ y then DecodeLastRune (q ++ [y]) else .ok (y.toNat, 1)) = DecodeLastRune (q ++ [y]) := by
  by_cases h : 0x80 ≤ y
  · rw [if_pos h]
  · rw [if_neg h]
    obtain ⟨c, hc, hv⟩ := ascii_char (UInt8.not_le.mp h)
    rw [← hc, decodeLast_char, hv, hc]
    rfl

/-- The last non-space: what `lastIndexFunc` returns for it. -/
inductive LastOf : List UInt8 → Nat → Prop
  | char (x : List UInt8) (c : Char) : LastOf (x ++ utf8 [c]) x.length
  | bad (x : List UInt8) (y : UInt8) : (¬ ∃ z c, x ++ [y] = z ++ utf8 [c]) → LastOf (x ++ [y]) x.length

theorem lastIndexFunc_step {t post : List UInt8} {r size fuel : Nat} (ht : t ≠ []) (hd : DecodeLastRune t = .ok (r, size)) :
    lastIndexFunc (t ++ post) (fuel + 1) t.length =
      if IsSpace r = false then .ok ((t.length : Int) - size) else lastIndexFunc (t ++ post) fuel (t.length - size) := by
  obtain ⟨q, y, rfl⟩ : ∃ q y, t = q ++ [y] := ⟨t.dropLast, t.getLast ht, (List.dropLast_concat_getLast ht).symm⟩
  have hgi : goIndex (q ++ [y] ++ post) ((q ++ [y]).length - 1) = .ok y := by
    rw [show (q ++ [y]).length - 1 = q.length by simp, List.append_assoc]; exact goIndex_append
  conv => lhs; unfold lastIndexFunc
  rw [if_pos (by simp), hgi]
  have hda := decodeLast_ascii (q := q) (y := y)
  rw [hd] at hda
  simp only [bind, Except.bind, goSliceTo_append]
  by_cases hy : 0x80 ≤ y
  · simp only [if_pos hy, hd]
  · simp only [if_neg hy, Except.ok.injEq, Prod.mk.injEq] at hda ⊢
    obtain ⟨rfl, rfl⟩ := hda
    rfl

theorem lastIndexFunc_spec {w t : List UInt8} (hw : Spaces w) (h0 : trailingSpace t = 0) : ∀ (fuel : Nat) (post : List UInt8),
    (t ++ w).length < fuel →
    (t = [] → lastIndexFunc (t ++ w ++ post) fuel (t ++ w).length = .ok (-1)) ∧
    (t ≠ [] → ∃ n, LastOf t n ∧ lastIndexFunc (t ++ w ++ post) fuel (t ++ w).length = .ok n) := by
  refine Spaces.snoc_ind (P := fun w => ∀ (fuel : Nat) (post : List UInt8), (t ++ w).length < fuel →
    (t = [] → lastIndexFunc (t ++ w ++ post) fuel (t ++ w).length = .ok (-1)) ∧
    (t ≠ [] → ∃ n, LastOf t n ∧ lastIndexFunc (t ++ w ++ post) fuel (t ++ w).length = .ok n)) ?_ ?_ hw
  · intro fuel post hf
    obtain ⟨fuel, rfl⟩ : ∃ f, fuel = f + 1 := ⟨fuel - 1, by omega⟩
    rw [List.append_nil]
    constructor
    · rintro rfl
      unfold lastIndexFunc
      simp
    · intro ht
      rcases decodeLast_end ht with ⟨x, c, rfl, h2⟩ | ⟨h1, h2⟩
      · refine ⟨x.length, .char x c, ?_⟩
        rw [lastIndexFunc_step ht h2]
        have hs : IsSpace c.val.toNat = false := by
          refine Bool.eq_false_iff.mpr fun hsp => ?_
          have hm : utf8 [c] ∈ spaceSequences := mem_space.mpr ⟨c, (isSpace_char c).mp hsp, rfl⟩
          rw [trailingSpace_append hm] at h0
          have := space_length hm
          omega
        rw [if_pos hs]
        simp
      · rw [lastIndexFunc_step ht h2, if_pos isSpace_error]
        obtain ⟨q, y, rfl⟩ : ∃ q y, t = q ++ [y] := ⟨t.dropLast, t.getLast ht, (List.dropLast_concat_getLast ht).symm⟩
        exact ⟨q.length, .bad q y h1, by simp⟩
  · intro a u _ hu ih fuel post hf
    obtain ⟨fuel, rfl⟩ : ∃ f, fuel = f + 1 := ⟨fuel - 1, by omega⟩
    obtain ⟨c, hc, rfl⟩ := mem_space.mp hu
    have hl := space_length hu
    have hd := decodeLast_char (t ++ a) c
    have hne : t ++ a ++ utf8 [c] ≠ [] := by
      intro e
      have := congrArg List.length e
      simp only [List.length_append, List.length_nil] at this
      omega
    have hstep := lastIndexFunc_step (post := post) (fuel := fuel) hne hd
    rw [if_neg (by rw [(isSpace_char c).mpr hc]; simp)] at hstep
    rw [show (t ++ a ++ utf8 [c]).length - (utf8 [c]).length = (t ++ a).length by simp; omega] at hstep
    rw [show t ++ (a ++ utf8 [c]) = t ++ a ++ utf8 [c] by simp, hstep,
      show t ++ a ++ utf8 [c] ++ post = t ++ a ++ (utf8 [c] ++ post) by simp]
    exact ih fuel _ (by simp only [List.length_append] at hf ⊢; omega)

/-- White space does not begin with a continuation byte. -/
theorem spaces_head {w : List UInt8} (hw : Spaces w) : ∀ b rest, w = b :: rest → ¬ IsCont b := by
  intro b rest h hc
  cases hw with
  | nil => cases h
  | cons u w hu _ =>
    have hl := space_length hu
    have := (space_bytes u hu 0 (by omega) (by omega)).1 rfl
    cases u with
    | nil => simp at hl
    | cons x u =>
      simp only [List.cons_append, List.cons.injEq] at h
      simp only [List.getD_cons_zero] at this
      obtain ⟨rfl, -⟩ := h
      have c1 : 0x80 ≤ x.toNat := hc.1
      have c2 : x.toNat ≤ 0xBF := hc.2
      rcases this with h1 | h1
      · have : x.toNat < 0x80 := h1; omega
      · have : 0xC0 ≤ x.toNat := h1; omega

theorem TrimRightFunc_spec {w t : List UInt8} (hw : Spaces w) (h0 : trailingSpace t = 0) : TrimRightFunc (t ++ w) = .ok t := by
  obtain ⟨h1, h2⟩ := lastIndexFunc_spec hw h0 ((t ++ w).length + 1) [] (by omega)
  rw [List.append_nil] at h1 h2
  unfold TrimRightFunc
  by_cases ht : t = []
  · subst ht
    simp only [h1 rfl, bind, Except.bind]
    simp [goSliceTo]
  · obtain ⟨n, hn, h3⟩ := h2 ht
    simp only [h3, bind, Except.bind]
    rw [if_pos (by omega)]
    simp only [Int.toNat_natCast]
    cases hn with
    | char x c =>
      rcases char_shape c with ⟨b, hb, hlt⟩ | ⟨b, conts, y, he, hb, hc, hy, hl⟩
      · rw [hb, show x ++ [b] ++ w = x ++ b :: w by simp, goIndex_append]
        simp only [if_neg (UInt8.not_le.mpr hlt)]
        rw [show ((x.length : Int) + 1).toNat = (x ++ [b]).length by simp, show x ++ b :: w = x ++ [b] ++ w by simp]
        exact goSliceTo_append
      · have hge : 0x80 ≤ b := by
          refine UInt8.not_lt.mp fun hlt => ?_
          have hs := isSeq_encode c
          rw [← utf8_one, he] at hs
          have hb' : b.toNat < 0x80 := hlt
          cases conts with
          | nil =>
            cases hs with
            | two _ _ h _ _ => have : 0xC0 ≤ b.toNat := h; omega
          | cons z conts =>
            cases conts with
            | nil => cases hs with
              | three _ _ _ h _ _ _ => have : 0xE0 ≤ b.toNat := h; omega
            | cons z' conts =>
              cases conts with
              | nil => cases hs with
                | four _ _ _ _ h _ _ _ _ => have : 0xF0 ≤ b.toNat := h; omega
              | cons _ _ => simp at hl
        have hdec := decodeRune_char c w
        have e1 : goIndex (x ++ utf8 [c] ++ w) x.length = .ok b := by
          rw [he, List.append_assoc, List.cons_append]; exact goIndex_append
        have e2 : goSliceFrom (x ++ utf8 [c] ++ w) x.length = .ok (utf8 [c] ++ w) := by
          rw [List.append_assoc]; exact goSliceFrom_append
        rw [e1, e2]
        simp only [if_pos hge, hdec]
        rw [show ((x.length : Int) + ((utf8 [c]).length : Nat)).toNat = (x ++ utf8 [c]).length by simp; omega]
        exact goSliceTo_append
    | bad x y hno =>
      rw [show x ++ [y] ++ w = x ++ y :: w by simp, goIndex_append]
      simp only []
      have e3 : goSliceTo (x ++ y :: w) ((x.length : Int) + 1).toNat = .ok (x ++ [y]) := by
        rw [show ((x.length : Int) + 1).toNat = (x ++ [y]).length by simp, show x ++ y :: w = x ++ [y] ++ w by simp]
        exact goSliceTo_append
      by_cases hge : 0x80 ≤ y
      · rw [if_pos hge, goSliceFrom_append]
        simp only []
        have hn : NoChar (y :: w) := by
          rintro ⟨c, r, he⟩
          rcases char_shape c with ⟨b, hb, hlt⟩ | ⟨b, conts, z, he', hb, hc, hz, hl⟩
          · rw [hb] at he
            simp only [List.cons_append, List.cons.injEq] at he
            exact absurd hge (UInt8.not_le.mpr (he.1 ▸ hlt))
          · rw [he'] at he
            simp only [List.cons_append, List.cons.injEq] at he
            cases conts with
            | nil => exact spaces_head hw z r (by simpa using he.2) hz
            | cons z' conts => exact spaces_head hw z' _ (by simpa using he.2) (hc z' (by simp))
        rw [decodeRune_bad y w hn]
        exact e3
      · rw [if_neg hge]
        exact e3

theorem TrimFunc_spec {t s : List UInt8} (h : Padded t s) : TrimFunc s = .ok t := by
  obtain ⟨ht, w, w', hw, hw', rfl⟩ := h
  rw [← spaces_iff] at hw hw'
  obtain ⟨h1, h2⟩ := trimmed_iff.mp ht
  unfold TrimFunc
  by_cases he : t = []
  · subst he
    have := TrimLeftFunc_spec (t := []) (hw.append hw') (by decide +kernel)
    rw [List.append_nil] at this
    rw [List.append_nil, this]
    simp only [bind, Except.bind]
    exact TrimRightFunc_spec (t := []) (w := []) .nil (by decide +kernel)
  · rw [List.append_assoc, TrimLeftFunc_spec hw (leadingSpace_append_spaces he h1 hw')]
    simp only [bind, Except.bind]
    exact TrimRightFunc_spec hw' h2

/-! ## The fast path -/

theorem asciiSpace_iff {c : UInt8} (h : c < 0x80) : asciiSpace c = true ↔ [c] ∈ spaceSequences := by
  have key : ∀ n : Fin 256, (UInt8.ofNat n) < 0x80 → (asciiSpace (UInt8.ofNat n) = true ↔ [UInt8.ofNat n] ∈ spaceSequences) := by
    decide +kernel
  have := key ⟨c.toNat, c.toNat_lt⟩
  simp only [UInt8.ofNat_toNat] at this
  exact this h

theorem TrimFunc_eq (s : List UInt8) : TrimFunc s = .ok (TrimSpace s) := TrimFunc_spec (padded_TrimSpace s)

theorem space_head_ascii : ∀ w ∈ spaceSequences, w.headD 0x80 < 0x80 → w.length = 1 := by decide +kernel

theorem space_last_ascii : ∀ w ∈ spaceSequences, w.getLastD 0x80 < 0x80 → w.length = 1 := by decide +kernel

theorem leadingSpace_ascii {c : UInt8} {m : List UInt8} (h : c < 0x80) (hs : asciiSpace c = false) : leadingSpace (c :: m) = 0 := by
  refine Decidable.byContradiction fun hn => ?_
  obtain ⟨w, hw, r, hr⟩ := leadingSpace_ne hn
  have hl := space_length hw
  cases w with
  | nil => simp at hl
  | cons x w =>
    simp only [List.cons_append, List.cons.injEq] at hr
    obtain ⟨rfl, -⟩ := hr
    have h1 := space_head_ascii _ hw (by simpa using h)
    have : w = [] := List.eq_nil_of_length_eq_zero (by simpa using h1)
    subst this
    rw [(asciiSpace_iff h).mpr hw] at hs
    cases hs

theorem trailingSpace_ascii {c : UInt8} {m : List UInt8} (h : c < 0x80) (hs : asciiSpace c = false) : trailingSpace (m ++ [c]) = 0 := by
  refine Decidable.byContradiction fun hn => ?_
  obtain ⟨w, hw, r, hr⟩ := trailingSpace_ne hn
  have hl := space_length hw
  have hne : w ≠ [] := by rintro rfl; simp at hl
  obtain ⟨q, y, rfl⟩ : ∃ q y, w = q ++ [y] := ⟨w.dropLast, w.getLast hne, (List.dropLast_concat_getLast hne).symm⟩
  rw [← List.append_assoc] at hr
  obtain ⟨-, h2⟩ := List.append_inj' hr rfl
  simp only [List.cons.injEq, and_true] at h2
  subst h2
  have h1 := space_last_ascii _ hw (by simpa using h)
  have : q = [] := List.eq_nil_of_length_eq_zero (by simpa using h1)
  subst this
  rw [List.nil_append, ← asciiSpace_iff h] at hw
  rw [hw] at hs
  cases hs

theorem trimSpaceStop_spec {a : List UInt8} {c : UInt8} (hc : c < 0x80) (hs : asciiSpace c = false) : ∀ (m z : List UInt8),
    trimSpaceStop (a ++ c :: (m ++ z)) a.length (a ++ c :: m).length = .ok (TrimSpace (c :: m)) := by
  intro m
  obtain ⟨rm, rfl⟩ : ∃ rm, m = rm.reverse := ⟨m.reverse, by simp⟩
  induction rm with
  | nil =>
    intro z
    have e : TrimSpace [c] = [c] := TrimSpace_padded ⟨trimmed_iff.mpr
      ⟨leadingSpace_ascii hc hs, trailingSpace_ascii (m := []) hc hs⟩, [], [], spaces_iff.mp .nil, spaces_iff.mp .nil, by simp⟩
    rw [List.reverse_nil, e, show (a ++ [c]).length = a.length + 1 by simp]
    unfold trimSpaceStop
    rw [if_pos (by omega), goIndex_append]
    simp only [bind, Except.bind, if_neg (UInt8.not_le.mpr hc), hs, Bool.false_eq_true, if_false]
    have e1 : goSliceTo (a ++ c :: ([] ++ z)) (a.length + 1) = .ok (a ++ [c]) := by
      rw [show a.length + 1 = (a ++ [c]).length by simp, show a ++ c :: ([] ++ z) = a ++ [c] ++ z by simp]
      exact goSliceTo_append
    rw [e1]
    exact goSliceFrom_append
  | cons y rm ih =>
    intro z
    rw [List.reverse_cons]
    generalize rm.reverse = m at ih ⊢
    rw [show (a ++ c :: (m ++ [y])).length = (a ++ c :: m).length + 1 by simp; omega,
      show a ++ c :: (m ++ [y] ++ z) = a ++ c :: m ++ y :: z by simp]
    conv => lhs; unfold trimSpaceStop
    rw [if_pos (by simp; omega), goIndex_append]
    have e1 : goSliceTo (a ++ c :: m ++ y :: z) ((a ++ c :: m).length + 1) = .ok (a ++ c :: (m ++ [y])) := by
      rw [show (a ++ c :: m).length + 1 = (a ++ c :: (m ++ [y])).length by simp; omega,
        show a ++ c :: m ++ y :: z = a ++ c :: (m ++ [y]) ++ z by simp]
      exact goSliceTo_append
    simp only [bind, Except.bind, e1, goSliceFrom_append]
    by_cases hy : 0x80 ≤ y
    · rw [if_pos hy]
      exact TrimFunc_eq _
    · have hlt : y < 0x80 := UInt8.not_le.mp hy
      rw [if_neg hy]
      by_cases hsp : asciiSpace y = true
      · rw [if_pos hsp]
        have := ih (y :: z)
        rw [show a ++ c :: (m ++ y :: z) = a ++ c :: m ++ y :: z by simp] at this
        rw [this, show c :: (m ++ [y]) = (c :: m) ++ [y] by simp,
          TrimSpace_append_spaces (Spaces.single ((asciiSpace_iff hlt).mp hsp))]
      · rw [if_neg hsp]
        have hsp' : asciiSpace y = false := Bool.eq_false_iff.mpr hsp
        rw [TrimSpace_padded (t := c :: (m ++ [y])) ⟨trimmed_iff.mpr ⟨leadingSpace_ascii hc hs, ?_⟩, [], [], spaces_iff.mp .nil,
          spaces_iff.mp .nil, by simp⟩]
        exact trailingSpace_ascii (m := c :: m) hlt hsp'

theorem trimSpaceStart_spec : ∀ (rest a : List UInt8) (fuel : Nat), rest.length < fuel →
    trimSpaceStart (a ++ rest) fuel a.length = .ok (TrimSpace rest) := by
  intro rest
  induction rest with
  | nil =>
    intro a fuel hf
    obtain ⟨fuel, rfl⟩ : ∃ f, fuel = f + 1 := ⟨fuel - 1, by omega⟩
    have e : TrimSpace [] = [] := by decide +kernel
    rw [e, List.append_nil]
    unfold trimSpaceStart
    rw [if_neg (by omega)]
    cases ha : a.length with
    | zero => rfl
    | succ n => unfold trimSpaceStop; rw [if_neg (by omega)]
  | cons c rest ih =>
    intro a fuel hf
    obtain ⟨fuel, rfl⟩ : ∃ f, fuel = f + 1 := ⟨fuel - 1, by omega⟩
    unfold trimSpaceStart
    rw [if_pos (by simp), goIndex_append]
    simp only [bind, Except.bind, goSliceFrom_append]
    by_cases hc : 0x80 ≤ c
    · rw [if_pos hc]; exact TrimFunc_eq _
    · have hlt : c < 0x80 := UInt8.not_le.mp hc
      rw [if_neg hc]
      by_cases hsp : asciiSpace c = true
      · rw [if_pos hsp]
        have := ih (a ++ [c]) fuel (by simp at hf; omega)
        rw [show a ++ [c] ++ rest = a ++ c :: rest by simp, show (a ++ [c]).length = a.length + 1 by simp] at this
        rw [this, show c :: rest = [c] ++ rest by simp, TrimSpace_spaces_append (Spaces.single ((asciiSpace_iff hlt).mp hsp))]
      · rw [if_neg hsp]
        have := trimSpaceStop_spec (a := a) hlt (Bool.eq_false_iff.mpr hsp) rest []
        rwa [List.append_nil] at this

/-- The code of `bytes.TrimSpace` agrees with the simplified definition that the models of the parsers use, and never panics. -/
theorem goTrimSpace_eq (s : List UInt8) : goTrimSpace s = .ok (TrimSpace s) :=
  trimSpaceStart_spec s [] (s.length + 1) (by omega)

end Textseg.Proofs
