import Verif.Proofs.Table
import Verif.Spec.Bytes
/-!
# LookupFirstChar against the specification
-/

namespace Textseg
open Spec

/-! ## Bytes -/

theorem forall_u8 {p : UInt8 → Prop} (h : ∀ i : Fin 256, p (UInt8.ofNat i.val)) (b : UInt8) : p b := by
  have := h ⟨b.toNat, b.toNat_lt⟩
  simpa using this

theorem and63 (b : UInt8) : (b &&& 0b111111).toNat = b.toNat % 64 := by
  rw [UInt8.toNat_and]
  exact Nat.and_two_pow_sub_one_eq_mod b.toNat 6

theorem seqLength_eq (b : UInt8) : seqLength b =
    if b ≤ 0x7F then some 1 else if b ≤ 0xBF then none else if b ≤ 0xDF then some 2 else if b ≤ 0xEF then some 3
    else if b ≤ 0xF7 then some 4 else none := by
  revert b
  apply forall_u8
  decide +kernel

instance (b : UInt8) : Decidable (IsCont b) := by unfold IsCont; infer_instance

theorem cont_eq (b : UInt8) : ((b &&& 0b11000000) != 0b10000000) = !decide (IsCont b) := by
  revert b
  apply forall_u8
  unfold IsCont
  decide +kernel

/-! ## Encoding -/

theorem u8_ofNat_eq {n : Nat} {b : UInt8} (h : UInt8.ofNat n = b) : n % 256 = b.toNat := by
  rw [← h]; simp

theorem isValidChar_lt {n : Nat} (h : n.isValidChar) : n < 0x110000 := by
  unfold Nat.isValidChar at h; omega

theorem char_valid (c : Char) : c.val.toNat.isValidChar := c.valid

theorem encode_injective {c d : Char} (h : String.utf8EncodeChar c = String.utf8EncodeChar d) : c = d := by
  have hc := isValidChar_lt (char_valid c)
  have hd := isValidChar_lt (char_valid d)
  apply Char.ext
  apply UInt32.toNat_inj.mp
  simp only [String.utf8EncodeChar] at h
  generalize c.val.toNat = x at *
  generalize d.val.toNat = y at *
  have key : ∀ a b : Nat, UInt8.ofNat a = UInt8.ofNat b → a % 256 = b % 256 := by
    intro a b h
    have := congrArg UInt8.toNat h
    simpa using this
  split at h <;> split at h <;> (try split at h) <;> (try split at h) <;> (try split at h) <;> (try split at h) <;>
    simp only [List.cons.injEq, and_true, reduceCtorEq, and_false] at h
  · have := key _ _ h; omega
  · have h1 := key _ _ h.1; have h2 := key _ _ h.2; omega
  · have h1 := key _ _ h.1; have h2 := key _ _ h.2.1; have h3 := key _ _ h.2.2; omega
  · have h1 := key _ _ h.1; have h2 := key _ _ h.2.1; have h3 := key _ _ h.2.2.1; have h4 := key _ _ h.2.2.2; omega

theorem seqProps_encode (c : Char) : seqProps (String.utf8EncodeChar c) = ucd c.val.toNat := by
  have h : ∃ d : Char, String.utf8EncodeChar d = String.utf8EncodeChar c := ⟨c, rfl⟩
  unfold seqProps
  rw [dif_pos h, encode_injective (Classical.choose_spec h)]

theorem seqProps_none {bs : List UInt8} (h : ∀ c : Char, String.utf8EncodeChar c ≠ bs) :
    seqProps bs = CharProps.none := by
  unfold seqProps
  rw [dif_neg (fun ⟨c, hc⟩ => h c hc)]

theorem pack_charProps_none : pack CharProps.none = 0 := by decide

/-! ## Table reads -/

theorem table_sound (c : Nat) (h : c < 0x200000) :
    ∃ b, cpBlock (c / 64) = b + 1 ∧ blockByte b (c % 64) = pack (ucd c) := by
  have := checkNode_sound cpBlock 15 0 _ _ _ table_check c (by omega) (by omega)
  exact this

/-- No listed range meets `lo..hi`. -/
theorem lookupRange_disjoint {α : Type} {lo hi c : Nat} (h1 : lo ≤ c) (h2 : c ≤ hi) (rs : List (Nat × Nat × α))
    (h : restrict lo hi rs = []) : lookupRange c rs = none := by
  rw [← lookupRange_restrict h1 h2, h]; rfl

/-- The data files list no surrogate. -/
theorem ucd_surrogate (c : Nat) (h1 : 0xD800 ≤ c) (h2 : c ≤ 0xDFFF) : ucd c = CharProps.none := by
  unfold ucd
  rw [lookupRange_disjoint h1 h2 _ (by decide +kernel), lookupRange_disjoint h1 h2 _ (by decide +kernel),
    lookupRange_disjoint h1 h2 _ (by decide +kernel)]
  rfl

/-- The data files list nothing above U+10FFFF. -/
theorem ucd_big (c : Nat) (h1 : 0x110000 ≤ c) : ucd c = CharProps.none := by
  have hr : ∀ {α : Type} (rs : List (Nat × Nat × α)), (rs.all fun r => r.2.1 < 0x110000) = true →
      lookupRange c rs = none := by
    intro α rs h
    induction rs with
    | nil => rfl
    | cons r rs ih =>
      simp only [List.all_cons, Bool.and_eq_true, decide_eq_true_eq] at h
      obtain ⟨a, b, v⟩ := r
      simp only [lookupRange]
      rw [if_neg (by simp only at h; omega), ih h.2]
  unfold ucd
  rw [hr _ (by decide +kernel), hr _ (by decide +kernel), hr _ (by decide +kernel)]
  rfl

theorem props_index (i j b : Nat) (h : lookupProps.blocks[i]? = some b) (hj : j < 64) :
    lookupProps.index ((i <<< 6) + j) = .ok (blockByte b j) := by
  unfold PackedTable.index
  rw [Nat.shiftLeft_eq, show (i * 2 ^ 6 + j) / 64 = i by omega, h, show (i * 2 ^ 6 + j) % 64 = j by omega]

theorem block2_spec {a b : Nat} (h : block2 a = b + 1) :
    ∃ i, lookupIndices.index a = .ok i ∧ lookupProps.blocks[i.toNat]? = some b := by
  unfold block2 at h
  cases ha : Nat.ble a 1599
  · rw [ha] at h; cases h
  · rw [ha, cond_true] at h
    have ha' := Nat.ble_eq.mp ha
    refine ⟨_, idxN_spec a (by omega), ?_⟩
    have hl := idxN_lt a
    have := propBlockN_spec _ _ h
    rw [UInt8.toNat_ofNat', Nat.mod_eq_of_lt hl]
    exact this

theorem block3_spec {a b x : Nat} (h : block3 a b = x + 1) :
    ∃ i, lookupIndices.index a = .ok i ∧ block2 ((i.toNat <<< 6) + b) = x + 1 := by
  unfold block3 at h
  cases ha : Nat.ble a 1599
  · rw [ha] at h; cases h
  · rw [ha, cond_true] at h
    have ha' := Nat.ble_eq.mp ha
    refine ⟨_, idxN_spec a (by omega), ?_⟩
    have hl := idxN_lt a
    rw [UInt8.toNat_ofNat', Nat.mod_eq_of_lt hl, Nat.shiftLeft_eq, Nat.mul_comm]
    exact h

theorem block4_spec {a b c x : Nat} (h : block4 a b c = x + 1) :
    ∃ i, lookupIndices.index a = .ok i ∧ block3 ((i.toNat <<< 6) + b) c = x + 1 := by
  unfold block4 at h
  cases ha : Nat.ble a 1599
  · rw [ha] at h; cases h
  · rw [ha, cond_true] at h
    have ha' := Nat.ble_eq.mp ha
    refine ⟨_, idxN_spec a (by omega), ?_⟩
    have hl := idxN_lt a
    rw [UInt8.toNat_ofNat', Nat.mod_eq_of_lt hl, Nat.shiftLeft_eq, Nat.mul_comm]
    exact h

theorem cpBlock_ascii {k : Nat} (h : k < 2) : cpBlock k = propBlockN k := by
  unfold cpBlock
  rw [Bool.eq_false_iff.mpr (fun h => by have := Nat.ble_eq.mp h; omega : Nat.ble 1024 k ≠ true),
    Bool.eq_false_iff.mpr (fun h => by have := Nat.ble_eq.mp h; omega : Nat.ble 32 k ≠ true),
    Bool.eq_false_iff.mpr (fun h => by have := Nat.ble_eq.mp h; omega : Nat.ble 2 k ≠ true)]
  simp only [cond_false]

theorem cpBlock_two {k : Nat} (h : 2 ≤ k) (h2 : k < 32) : cpBlock k = block2 k := by
  unfold cpBlock
  rw [Bool.eq_false_iff.mpr (fun h => by have := Nat.ble_eq.mp h; omega : Nat.ble 1024 k ≠ true),
    Bool.eq_false_iff.mpr (fun h => by have := Nat.ble_eq.mp h; omega : Nat.ble 32 k ≠ true),
    Nat.ble_eq.mpr h]
  simp only [cond_false, cond_true]

theorem cpBlock_three {k : Nat} (h : 32 ≤ k) (h2 : k < 1024) : cpBlock k = block3 (32 + k / 64) (k % 64) := by
  unfold cpBlock
  rw [Bool.eq_false_iff.mpr (fun h => by have := Nat.ble_eq.mp h; omega : Nat.ble 1024 k ≠ true), Nat.ble_eq.mpr h]
  simp only [cond_false, cond_true]
  rfl

theorem cpBlock_four {k : Nat} (h : 1024 ≤ k) : cpBlock k = block4 (48 + k / 4096) (k / 64 % 64) (k % 64) := by
  unfold cpBlock
  rw [Nat.ble_eq.mpr h, cond_true]
  rfl

/-! ## The lookup on well-formed sequences -/

theorem char_exists {n : Nat} (h : n.isValidChar) : ∃ c : Char, c.val.toNat = n := by
  have hlt := isValidChar_lt h
  have hn : (UInt32.ofNat n).toNat = n := by
    rw [UInt32.toNat_ofNat', Nat.mod_eq_of_lt (by omega)]
  exact ⟨⟨UInt32.ofNat n, by rw [UInt32.isValidChar, hn]; exact h⟩, hn⟩

theorem u8_eq {n : Nat} {b : UInt8} (h : n = b.toNat) : UInt8.ofNat n = b := by
  rw [h]; simp

/-- The properties of a two-byte sequence. -/
theorem seqProps_two {b c : UInt8} (h1 : 0xC0 ≤ b) (h2 : b ≤ 0xDF) (h3 : IsCont c) :
    seqProps [b, c] = if b.toNat < 0xC2 then CharProps.none else ucd ((b.toNat - 0xC0) * 64 + (c.toNat - 0x80)) := by
  have b1 : 0xC0 ≤ b.toNat := h1
  have b2 : b.toNat ≤ 0xDF := h2
  have c1 : 0x80 ≤ c.toNat := h3.1
  have c2 : c.toNat ≤ 0xBF := h3.2
  split
  · apply seqProps_none
    intro ch hch
    have hc := isValidChar_lt (char_valid ch)
    simp only [String.utf8EncodeChar] at hch
    generalize ch.val.toNat = v at *
    split at hch <;> (try split at hch) <;> (try split at hch) <;>
      simp only [List.cons.injEq, and_true, reduceCtorEq, and_false] at hch
    have e1 := u8_ofNat_eq hch.1
    have e2 := u8_ofNat_eq hch.2
    omega
  · obtain ⟨ch, hch⟩ := char_exists (n := (b.toNat - 0xC0) * 64 + (c.toNat - 0x80)) (by unfold Nat.isValidChar; omega)
    have : String.utf8EncodeChar ch = [b, c] := by
      simp only [String.utf8EncodeChar, hch]
      rw [if_neg (by omega), if_pos (by omega), u8_eq (b := b) (by omega), u8_eq (b := c) (by omega)]
    rw [← this, seqProps_encode, hch]

/-- The properties of a three-byte sequence. -/
theorem seqProps_three {b c d : UInt8} (h1 : 0xE0 ≤ b) (h2 : b ≤ 0xEF) (h3 : IsCont c) (h4 : IsCont d) :
    seqProps [b, c, d] = if b.toNat = 0xE0 ∧ c.toNat < 0xA0 then CharProps.none
      else if b.toNat = 0xED ∧ 0xA0 ≤ c.toNat then CharProps.none
      else ucd ((b.toNat - 0xE0) * 4096 + (c.toNat - 0x80) * 64 + (d.toNat - 0x80)) := by
  have b1 : 0xE0 ≤ b.toNat := h1
  have b2 : b.toNat ≤ 0xEF := h2
  have c1 : 0x80 ≤ c.toNat := h3.1
  have c2 : c.toNat ≤ 0xBF := h3.2
  have d1 : 0x80 ≤ d.toNat := h4.1
  have d2 : d.toNat ≤ 0xBF := h4.2
  have none_case : (b.toNat = 0xE0 ∧ c.toNat < 0xA0) ∨ (b.toNat = 0xED ∧ 0xA0 ≤ c.toNat) →
      seqProps [b, c, d] = CharProps.none := by
    intro h
    apply seqProps_none
    intro ch hch
    have hc : ch.val.toNat.isValidChar := char_valid ch
    unfold Nat.isValidChar at hc
    simp only [String.utf8EncodeChar] at hch
    generalize ch.val.toNat = v at *
    split at hch <;> (try split at hch) <;> (try split at hch) <;>
      simp only [List.cons.injEq, and_true, reduceCtorEq, and_false] at hch
    have e1 := u8_ofNat_eq hch.1
    have e2 := u8_ofNat_eq hch.2.1
    have e3 := u8_ofNat_eq hch.2.2
    omega
  split
  · next h => exact none_case (Or.inl h)
  · split
    · next h => exact none_case (Or.inr h)
    · next h h' =>
      obtain ⟨ch, hch⟩ := char_exists (n := (b.toNat - 0xE0) * 4096 + (c.toNat - 0x80) * 64 + (d.toNat - 0x80))
        (by unfold Nat.isValidChar; omega)
      have : String.utf8EncodeChar ch = [b, c, d] := by
        simp only [String.utf8EncodeChar, hch]
        rw [if_neg (by omega), if_neg (by omega), if_pos (by omega), u8_eq (b := b) (by omega),
          u8_eq (b := c) (by omega), u8_eq (b := d) (by omega)]
      rw [← this, seqProps_encode, hch]

/-- The properties of a four-byte sequence. -/
theorem seqProps_four {b c d e : UInt8} (h1 : 0xF0 ≤ b) (h2 : b ≤ 0xF7) (h3 : IsCont c) (h4 : IsCont d)
    (h5 : IsCont e) :
    seqProps [b, c, d, e] = if b.toNat = 0xF0 ∧ c.toNat < 0x90 then CharProps.none
      else if 0xF4 < b.toNat ∨ b.toNat = 0xF4 ∧ 0x90 ≤ c.toNat then CharProps.none
      else ucd ((b.toNat - 0xF0) * 262144 + (c.toNat - 0x80) * 4096 + (d.toNat - 0x80) * 64 + (e.toNat - 0x80)) := by
  have b1 : 0xF0 ≤ b.toNat := h1
  have b2 : b.toNat ≤ 0xF7 := h2
  have c1 : 0x80 ≤ c.toNat := h3.1
  have c2 : c.toNat ≤ 0xBF := h3.2
  have d1 : 0x80 ≤ d.toNat := h4.1
  have d2 : d.toNat ≤ 0xBF := h4.2
  have e1 : 0x80 ≤ e.toNat := h5.1
  have e2 : e.toNat ≤ 0xBF := h5.2
  have none_case : (b.toNat = 0xF0 ∧ c.toNat < 0x90) ∨ (0xF4 < b.toNat ∨ b.toNat = 0xF4 ∧ 0x90 ≤ c.toNat) →
      seqProps [b, c, d, e] = CharProps.none := by
    intro h
    apply seqProps_none
    intro ch hch
    have hc : ch.val.toNat.isValidChar := char_valid ch
    unfold Nat.isValidChar at hc
    simp only [String.utf8EncodeChar] at hch
    generalize ch.val.toNat = v at *
    split at hch <;> (try split at hch) <;> (try split at hch) <;>
      simp only [List.cons.injEq, and_true, reduceCtorEq, and_false] at hch
    have f1 := u8_ofNat_eq hch.1
    have f2 := u8_ofNat_eq hch.2.1
    have f3 := u8_ofNat_eq hch.2.2.1
    omega
  split
  · next h => exact none_case (Or.inl h)
  · split
    · next h => exact none_case (Or.inr h)
    · next h h' =>
      obtain ⟨ch, hch⟩ := char_exists
        (n := (b.toNat - 0xF0) * 262144 + (c.toNat - 0x80) * 4096 + (d.toNat - 0x80) * 64 + (e.toNat - 0x80))
        (by unfold Nat.isValidChar; omega)
      have : String.utf8EncodeChar ch = [b, c, d, e] := by
        simp only [String.utf8EncodeChar, hch]
        rw [if_neg (by omega), if_neg (by omega), if_neg (by omega), u8_eq (b := b) (by omega),
          u8_eq (b := c) (by omega), u8_eq (b := d) (by omega), u8_eq (b := e) (by omega)]
      rw [← this, seqProps_encode, hch]

theorem seqProps_one {b : UInt8} (h : b ≤ 0x7F) : seqProps [b] = ucd b.toNat := by
  have hb : b.toNat ≤ 127 := h
  obtain ⟨ch, hch⟩ := char_exists (n := b.toNat) (by unfold Nat.isValidChar; omega)
  have : String.utf8EncodeChar ch = [b] := by
    simp only [String.utf8EncodeChar, hch]
    rw [if_pos hb, u8_eq rfl]
  rw [← this, seqProps_encode, hch]

theorem switch1 (b : UInt8) (rest : List UInt8) (h : b ≤ 0x7F) :
    lookupSwitch (b :: rest) b 1 = .ok (pack (seqProps [b]), 1) := by
  have hb : b.toNat ≤ 127 := h
  obtain ⟨blk, h1, h2⟩ := table_sound b.toNat (by omega)
  rw [cpBlock_ascii (by omega)] at h1
  have h3 := props_index _ (b.toNat % 64) _ (propBlockN_spec _ _ h1) (by omega)
  rw [Nat.shiftLeft_eq, show b.toNat / 64 * 2 ^ 6 + b.toNat % 64 = b.toNat by omega] at h3
  rw [seqProps_one h, ← h2]
  simp only [lookupSwitch, lookupSwitchIn, h3]
  rfl

theorem switch2 (b c : UInt8) (rest : List UInt8) (h1 : 0xC0 ≤ b) (h2 : b ≤ 0xDF) (h3 : IsCont c) :
    lookupSwitch (b :: c :: rest) b 2 = .ok (pack (seqProps [b, c]), 2) := by
  have b1 : 0xC0 ≤ b.toNat := h1
  have b2 : b.toNat ≤ 0xDF := h2
  have c1 : 0x80 ≤ c.toNat := h3.1
  have c2 : c.toNat ≤ 0xBF := h3.2
  have key : ∃ blk, block2 (b.toNat % 64) = blk + 1 ∧ blockByte blk (c.toNat % 64) = pack (seqProps [b, c]) := by
    rw [seqProps_two h1 h2 h3]
    split
    · refine ⟨0, zeroBlocks_sound _ _ _ overlong2_check _ (by omega) (by omega), ?_⟩
      rw [blockByte_zero, pack_charProps_none]
    · obtain ⟨blk, h4, h5⟩ := table_sound ((b.toNat - 0xC0) * 64 + (c.toNat - 0x80)) (by omega)
      rw [cpBlock_two (by omega) (by omega)] at h4
      refine ⟨blk, ?_, ?_⟩
      · rw [← h4]; exact congrArg block2 (by omega)
      · rw [← h5]; exact congrArg (blockByte blk) (by omega)
  obtain ⟨blk, h4, h5⟩ := key
  obtain ⟨i, h6, h7⟩ := block2_spec h4
  have h8 := props_index _ (c.toNat % 64) _ h7 (by omega)
  rw [h5] at h8
  simp only [lookupSwitch, lookupSwitchIn, and63, goIndex, List.getElem?_cons_succ, List.getElem?_cons_zero]
  simp only [h6, h8, bind, Except.bind]
  rfl

theorem switch3 (b c d : UInt8) (rest : List UInt8) (h1 : 0xE0 ≤ b) (h2 : b ≤ 0xEF) (h3 : IsCont c) (h4 : IsCont d) :
    lookupSwitch (b :: c :: d :: rest) b 3 = .ok (pack (seqProps [b, c, d]), 3) := by
  have b1 : 0xE0 ≤ b.toNat := h1
  have b2 : b.toNat ≤ 0xEF := h2
  have c1 : 0x80 ≤ c.toNat := h3.1
  have c2 : c.toNat ≤ 0xBF := h3.2
  have d1 : 0x80 ≤ d.toNat := h4.1
  have d2 : d.toNat ≤ 0xBF := h4.2
  have key : ∃ blk, block3 (b.toNat % 64) (c.toNat % 64) = blk + 1 ∧
      blockByte blk (d.toNat % 64) = pack (seqProps [b, c, d]) := by
    have tbl : ¬ (b.toNat = 0xE0 ∧ c.toNat < 0xA0) → ∃ blk, block3 (b.toNat % 64) (c.toNat % 64) = blk + 1 ∧
        blockByte blk (d.toNat % 64) =
          pack (ucd ((b.toNat - 0xE0) * 4096 + (c.toNat - 0x80) * 64 + (d.toNat - 0x80))) := by
      intro h
      obtain ⟨blk, h4, h5⟩ := table_sound ((b.toNat - 0xE0) * 4096 + (c.toNat - 0x80) * 64 + (d.toNat - 0x80)) (by omega)
      rw [cpBlock_three (by omega) (by omega)] at h4
      refine ⟨blk, ?_, ?_⟩
      · rw [← h4]; exact congr (congrArg block3 (by omega)) (by omega)
      · rw [← h5]; exact congrArg (blockByte blk) (by omega)
    rw [seqProps_three h1 h2 h3 h4]
    split
    · next h =>
      refine ⟨0, ?_, ?_⟩
      · rw [show b.toNat % 64 = 32 by omega]
        exact zeroBlocks_sound _ _ _ overlong3_check _ (by omega) (by omega)
      · rw [blockByte_zero, pack_charProps_none]
    · next h =>
      split
      · next h' =>
        obtain ⟨blk, h5, h6⟩ := tbl h
        refine ⟨blk, h5, ?_⟩
        rw [h6, ucd_surrogate _ (by omega) (by omega)]
      · exact tbl h
  obtain ⟨blk, h5, h6⟩ := key
  obtain ⟨i, h7, h8⟩ := block3_spec h5
  obtain ⟨j, h9, h10⟩ := block2_spec h8
  have h11 := props_index _ (d.toNat % 64) _ h10 (by omega)
  rw [h6] at h11
  simp only [lookupSwitch, lookupSwitchIn, and63, goIndex, List.getElem?_cons_succ, List.getElem?_cons_zero]
  simp only [h7, h9, h11, bind, Except.bind]
  rfl

theorem switch4 (b c d e : UInt8) (rest : List UInt8) (h1 : 0xF0 ≤ b) (h2 : b ≤ 0xF7) (h3 : IsCont c)
    (h4 : IsCont d) (h4' : IsCont e) :
    lookupSwitch (b :: c :: d :: e :: rest) b 4 = .ok (pack (seqProps [b, c, d, e]), 4) := by
  have b1 : 0xF0 ≤ b.toNat := h1
  have b2 : b.toNat ≤ 0xF7 := h2
  have c1 : 0x80 ≤ c.toNat := h3.1
  have c2 : c.toNat ≤ 0xBF := h3.2
  have d1 : 0x80 ≤ d.toNat := h4.1
  have d2 : d.toNat ≤ 0xBF := h4.2
  have e1 : 0x80 ≤ e.toNat := h4'.1
  have e2 : e.toNat ≤ 0xBF := h4'.2
  have key : ∃ blk, block4 (b.toNat % 64) (c.toNat % 64) (d.toNat % 64) = blk + 1 ∧
      blockByte blk (e.toNat % 64) = pack (seqProps [b, c, d, e]) := by
    have tbl : ¬ (b.toNat = 0xF0 ∧ c.toNat < 0x90) →
        ∃ blk, block4 (b.toNat % 64) (c.toNat % 64) (d.toNat % 64) = blk + 1 ∧ blockByte blk (e.toNat % 64) =
        pack (ucd ((b.toNat - 0xF0) * 262144 + (c.toNat - 0x80) * 4096 + (d.toNat - 0x80) * 64 + (e.toNat - 0x80))) := by
      intro h
      obtain ⟨blk, h4, h5⟩ := table_sound
        ((b.toNat - 0xF0) * 262144 + (c.toNat - 0x80) * 4096 + (d.toNat - 0x80) * 64 + (e.toNat - 0x80)) (by omega)
      rw [cpBlock_four (by omega)] at h4
      refine ⟨blk, ?_, ?_⟩
      · rw [← h4]; exact congr (congr (congrArg block4 (by omega)) (by omega)) (by omega)
      · rw [← h5]; exact congrArg (blockByte blk) (by omega)
    rw [seqProps_four h1 h2 h3 h4 h4']
    split
    · next h =>
      refine ⟨0, ?_, ?_⟩
      · rw [show b.toNat % 64 = 48 by omega]
        have := List.all_eq_true.mp overlong4_check (c.toNat % 64) (List.mem_range.mpr (by omega))
        exact zeroBlocks_sound _ _ _ this _ (by omega) (by omega)
      · rw [blockByte_zero, pack_charProps_none]
    · next h =>
      split
      · next h' =>
        obtain ⟨blk, h5, h6⟩ := tbl h
        refine ⟨blk, h5, ?_⟩
        rw [h6, ucd_big _ (by omega)]
      · exact tbl h
  obtain ⟨blk, h5, h6⟩ := key
  obtain ⟨i, h7, h8⟩ := block4_spec h5
  obtain ⟨j, h9, h10⟩ := block3_spec h8
  obtain ⟨k, h11, h12⟩ := block2_spec h10
  have h13 := props_index _ (e.toNat % 64) _ h12 (by omega)
  rw [h6] at h13
  simp only [lookupSwitch, lookupSwitchIn, and63, goIndex, List.getElem?_cons_succ, List.getElem?_cons_zero]
  simp only [h7, h9, h11, h13, bind, Except.bind]
  rfl

/-! ## LookupFirstChar in general -/

theorem continuationLoop_eq (p : List UInt8) : ∀ (n i : Nat), i + n ≤ p.length →
    continuationLoop p i n = .ok (decide (∀ c ∈ (p.drop i).take n, IsCont c)) := by
  intro n
  induction n with
  | zero => intro i _; simp [continuationLoop]
  | succ n ih =>
    intro i h
    have hi : i < p.length := by omega
    rw [continuationLoop, goIndex, List.getElem?_eq_getElem hi, List.drop_eq_getElem_cons hi, List.take_succ_cons]
    simp only [bind, Except.bind, cont_eq]
    by_cases hc : IsCont p[i]
    · rw [ih (i + 1) (by omega)]
      simp [hc]
    · simp [hc]

theorem nle {b k : UInt8} (h : k.toNat < b.toNat) : ¬ b ≤ k := Nat.not_le_of_lt h

theorem isSeq_cons_iff (b : UInt8) (t : List UInt8) :
    IsSeq (b :: t) ↔ announced b = some (t.length + 1) ∧ ∀ c ∈ t, IsCont c := by
  constructor
  · intro h
    cases h with
    | one _ h1 => exact ⟨by simp [announced, h1], by simp⟩
    | two _ c h1 h2 h3 =>
      have h1' : 0xC0 ≤ b.toNat := h1
      refine ⟨?_, by simpa using h3⟩
      unfold announced
      rw [if_neg (nle (k := 0x7F) (Nat.lt_of_lt_of_le (by decide) h1')), if_neg (nle (k := 0xBF) (Nat.lt_of_lt_of_le (by decide) h1')), if_pos h2]
      rfl
    | three _ c d h1 h2 h3 h4 =>
      have h1' : 0xE0 ≤ b.toNat := h1
      refine ⟨?_, by simpa using ⟨h3, h4⟩⟩
      unfold announced
      rw [if_neg (nle (k := 0x7F) (Nat.lt_of_lt_of_le (by decide) h1')), if_neg (nle (k := 0xBF) (Nat.lt_of_lt_of_le (by decide) h1')),
        if_neg (nle (k := 0xDF) (Nat.lt_of_lt_of_le (by decide) h1')), if_pos h2]
      rfl
    | four _ c d e h1 h2 h3 h4 h5 =>
      have h1' : 0xF0 ≤ b.toNat := h1
      refine ⟨?_, by simpa using ⟨h3, h4, h5⟩⟩
      unfold announced
      rw [if_neg (nle (k := 0x7F) (Nat.lt_of_lt_of_le (by decide) h1')), if_neg (nle (k := 0xBF) (Nat.lt_of_lt_of_le (by decide) h1')),
        if_neg (nle (k := 0xDF) (Nat.lt_of_lt_of_le (by decide) h1')), if_neg (nle (k := 0xEF) (Nat.lt_of_lt_of_le (by decide) h1')), if_pos h2]
      rfl
  · rintro ⟨h1, h2⟩
    unfold announced at h1
    have lt_of : ∀ {x y : UInt8}, ¬ x ≤ y → y.toNat < x.toNat := fun {x y} h => Nat.lt_of_not_le h
    split at h1
    · next h =>
      obtain rfl : t = [] := by cases t with | nil => rfl | cons _ _ => simp at h1
      exact .one b h
    · split at h1
      · cases h1
      · next _ h3 =>
        have h3 := lt_of h3
        split at h1
        · next h =>
          match t, h1 with
          | [c], _ => exact .two b c h3 h (h2 c (by simp))
        · next h4 =>
          have h4 := lt_of h4
          split at h1
          · next h =>
            match t, h1 with
            | [c, d], _ => exact .three b c d h4 h (h2 c (by simp)) (h2 d (by simp))
          · next h5 =>
            have h5 := lt_of h5
            split at h1
            · next h =>
              match t, h1 with
              | [c, d, e], _ => exact .four b c d e h5 h (h2 c (by simp)) (h2 d (by simp)) (h2 e (by simp))
            · cases h1

theorem seqLength_announced (b : UInt8) : seqLength b = announced b := seqLength_eq b

theorem Spec.IsSeq.length_pos {bs : List UInt8} (h : IsSeq bs) : 0 < bs.length := by cases h <;> simp
theorem Spec.IsSeq.length_le {bs : List UInt8} (h : IsSeq bs) : bs.length ≤ 4 := by cases h <;> simp
theorem Spec.IsSeq.ne_nil {bs : List UInt8} (h : IsSeq bs) : bs ≠ [] := by cases h <;> simp

theorem lookupSwitch_seq {bs : List UInt8} (h : IsSeq bs) (rest : List UInt8) :
    ∀ b t, bs = b :: t → lookupSwitch (bs ++ rest) b bs.length = .ok (pack (seqProps bs), bs.length) := by
  intro b t hb
  cases h with
  | one b' h => cases hb; exact switch1 b rest h
  | two b' c h1 h2 h3 => cases hb; exact switch2 b c rest h1 h2 h3
  | three b' c d h1 h2 h3 h4 => cases hb; exact switch3 b c d rest h1 h2 h3 h4
  | four b' c d e h1 h2 h3 h4 h5 => cases hb; exact switch4 b c d e rest h1 h2 h3 h4 h5

theorem lookup_seq {bs : List UInt8} (h : IsSeq bs) (rest : List UInt8) :
    LookupFirstChar (bs ++ rest) = .ok (pack (seqProps bs), bs.length) := by
  match bs, h with
  | b :: t, h =>
    obtain ⟨h1, h2⟩ := (isSeq_cons_iff b t).mp h
    rw [List.cons_append, LookupFirstChar, LookupFirstCharIn]
    simp only [seqLength_announced, h1]
    rw [if_neg (by simp), continuationLoop_eq _ _ _ (by simp; omega)]
    have : ∀ c ∈ ((b :: (t ++ rest)).drop 1).take (t.length + 1 - 1), IsCont c := by simpa using h2
    rw [decide_eq_true this]
    exact lookupSwitch_seq h rest b t rfl

theorem lookup_incomplete {b : UInt8} {t : List UInt8} {n : Nat} (h : announced b = some n) (hn : t.length + 1 < n) :
    LookupFirstChar (b :: t) = .ok (0, 0) := by
  rw [LookupFirstChar, LookupFirstCharIn]
  simp only [seqLength_announced, h]
  rw [if_pos (by simpa using hn)]; rfl

theorem lookup_badFirst {b : UInt8} {t : List UInt8} (h : announced b = none) :
    LookupFirstChar (b :: t) = .ok (ErrorProps, 1) := by
  rw [LookupFirstChar, LookupFirstCharIn]
  simp only [seqLength_announced, h]

theorem lookup_badCont {b : UInt8} {t : List UInt8} {n : Nat} (h : announced b = some n) (hn : n ≤ t.length + 1)
    (hc : ∃ c ∈ t.take (n - 1), ¬ IsCont c) : LookupFirstChar (b :: t) = .ok (ErrorProps, 1) := by
  have hn1 : 1 ≤ n := by
    unfold announced at h
    split at h <;> (try split at h) <;> (try split at h) <;> (try split at h) <;> (try split at h) <;> simp at h <;> omega
  rw [LookupFirstChar, LookupFirstCharIn]
  simp only [seqLength_announced, h]
  rw [if_neg (by simp; omega), continuationLoop_eq _ _ _ (by simp; omega)]
  have : ¬ ∀ c ∈ ((b :: t).drop 1).take (n - 1), IsCont c := by
    obtain ⟨c, h1, h2⟩ := hc
    exact fun h => h2 (h c (by simpa using h1))
  rw [decide_eq_false this]
  rfl

/-- The four cases of a non-empty string. -/
theorem first_cases (p : List UInt8) (hp : p ≠ []) :
    (∃ bs rest, IsSeq bs ∧ p = bs ++ rest) ∨
    (∃ b t n, p = b :: t ∧ announced b = some n ∧ t.length + 1 < n) ∨
    (∃ b t, p = b :: t ∧ announced b = none) ∨
    (∃ b t n, p = b :: t ∧ announced b = some n ∧ n ≤ t.length + 1 ∧ ∃ c ∈ t.take (n - 1), ¬ IsCont c) := by
  match p, hp with
  | b :: t, _ =>
    cases h : announced b with
    | none => exact Or.inr (Or.inr (Or.inl ⟨b, t, rfl, h⟩))
    | some n =>
      by_cases hn : t.length + 1 < n
      · exact Or.inr (Or.inl ⟨b, t, n, rfl, h, hn⟩)
      · by_cases hc : ∃ c ∈ t.take (n - 1), ¬ IsCont c
        · exact Or.inr (Or.inr (Or.inr ⟨b, t, n, rfl, h, by omega, hc⟩))
        · have hn1 : 1 ≤ n := by
            unfold announced at h
            split at h <;> (try split at h) <;> (try split at h) <;> (try split at h) <;> (try split at h) <;>
              simp at h <;> omega
          refine Or.inl ⟨b :: t.take (n - 1), t.drop (n - 1), ?_, by simp⟩
          rw [isSeq_cons_iff]
          refine ⟨?_, fun c hm => ?_⟩
          · rw [h, List.length_take, Nat.min_eq_left (by omega)]; congr 1; omega
          · by_cases h' : IsCont c
            · exact h'
            · exact absurd ⟨c, hm, h'⟩ hc

/-- Sequences are prefix-free. -/
theorem Spec.IsSeq.unique {bs bs' r r' : List UInt8} (h : IsSeq bs) (h' : IsSeq bs') (e : bs ++ r = bs' ++ r') :
    bs = bs' ∧ r = r' := by
  match bs, bs', h, h' with
  | b :: t, b' :: t', h, h' =>
    simp only [List.cons_append, List.cons.injEq] at e
    obtain ⟨rfl, e⟩ := e
    have h1 := ((isSeq_cons_iff _ _).mp h).1
    have h2 := ((isSeq_cons_iff _ _).mp h').1
    rw [h1] at h2
    have := List.append_inj e (by simpa using h2)
    exact ⟨by rw [this.1], this.2⟩

/-- The string begins with a sequence. -/
def StartsWithSeq (p : List UInt8) : Prop := ∃ bs rest, IsSeq bs ∧ p = bs ++ rest

theorem not_startsWithSeq_incomplete {b : UInt8} {t : List UInt8} {n : Nat} (h : announced b = some n)
    (hn : t.length + 1 < n) : ¬ StartsWithSeq (b :: t) := by
  rintro ⟨bs, rest, h1, h2⟩
  match bs, h1 with
  | b' :: t', h1 =>
    simp only [List.cons_append, List.cons.injEq] at h2
    obtain ⟨rfl, rfl⟩ := h2
    have := ((isSeq_cons_iff _ _).mp h1).1
    rw [h] at this
    simp at this hn
    omega

theorem not_startsWithSeq_badFirst {b : UInt8} {t : List UInt8} (h : announced b = none) :
    ¬ StartsWithSeq (b :: t) := by
  rintro ⟨bs, rest, h1, h2⟩
  match bs, h1 with
  | b' :: t', h1 =>
    simp only [List.cons_append, List.cons.injEq] at h2
    obtain ⟨rfl, rfl⟩ := h2
    have := ((isSeq_cons_iff _ _).mp h1).1
    rw [h] at this
    cases this

theorem not_startsWithSeq_badCont {b : UInt8} {t : List UInt8} {n : Nat} (h : announced b = some n)
    (hc : ∃ c ∈ t.take (n - 1), ¬ IsCont c) : ¬ StartsWithSeq (b :: t) := by
  rintro ⟨bs, rest, h1, h2⟩
  match bs, h1 with
  | b' :: t', h1 =>
    simp only [List.cons_append, List.cons.injEq] at h2
    obtain ⟨rfl, rfl⟩ := h2
    obtain ⟨h3, h4⟩ := (isSeq_cons_iff _ _).mp h1
    rw [h] at h3
    obtain ⟨c, h5, h6⟩ := hc
    cases h3
    rw [Nat.add_sub_cancel, List.take_left] at h5
    exact h6 (h4 c h5)

/-- The three answers of the lookup on a non-empty string. -/
theorem lookup_cases (p : List UInt8) (hp : p ≠ []) :
    (∃ bs rest, IsSeq bs ∧ p = bs ++ rest ∧ LookupFirstChar p = .ok (pack (seqProps bs), bs.length)) ∨
    (¬ StartsWithSeq p ∧ (∃ b t n, p = b :: t ∧ announced b = some n ∧ t.length + 1 < n) ∧
      LookupFirstChar p = .ok (0, 0)) ∨
    (¬ StartsWithSeq p ∧ (∀ q, LookupFirstChar (p ++ q) = .ok (ErrorProps, 1))) := by
  rcases first_cases p hp with ⟨bs, rest, h1, h2⟩ | ⟨b, t, n, rfl, h1, h2⟩ | ⟨b, t, rfl, h1⟩ | ⟨b, t, n, rfl, h1, h2, h3⟩
  · exact Or.inl ⟨bs, rest, h1, h2, by rw [h2, lookup_seq h1]⟩
  · exact Or.inr (Or.inl ⟨not_startsWithSeq_incomplete h1 h2, ⟨b, t, n, rfl, h1, h2⟩, lookup_incomplete h1 h2⟩)
  · exact Or.inr (Or.inr ⟨not_startsWithSeq_badFirst h1, fun q => lookup_badFirst h1⟩)
  · refine Or.inr (Or.inr ⟨not_startsWithSeq_badCont h1 h3, fun q => ?_⟩)
    obtain ⟨c, h4, h5⟩ := h3
    exact lookup_badCont h1 (by simp; omega)
      ⟨c, by rw [show t.append q = t ++ q from rfl, List.take_append_of_le_length (by omega)]; exact h4, h5⟩

end Textseg
