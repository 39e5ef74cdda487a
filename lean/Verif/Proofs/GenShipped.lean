import Verif.Proofs.GenSim
import Verif.Proofs.Lookup
/-!
# The compaction of the properties in the Unicode data files gives the shipped table
-/

namespace Textseg.Gen
open Textseg Spec

/-- The bytes of a block. -/
def bytesOf (b : Nat) : List UInt8 := (List.range 64).map (blockByte b)

def tableBytes (t : PackedTable) : List UInt8 := t.blocks.flatMap bytesOf

theorem bytesOf_length (b : Nat) : (bytesOf b).length = 64 := by simp [bytesOf]

theorem flatBytes_length (l : List Nat) : (l.flatMap bytesOf).length = 64 * l.length := by
  induction l with
  | nil => rfl
  | cons b l ih => simp [List.flatMap_cons, bytesOf_length, ih]; omega

theorem tableBytes_length (t : PackedTable) : (tableBytes t).length = 64 * t.blocks.length := flatBytes_length _

theorem tableBytes_get (l : List Nat) (i : Nat) : (l.flatMap bytesOf)[i]? = (l[i / 64]?).map fun b => blockByte b (i % 64) := by
  induction l generalizing i with
  | nil => simp
  | cons b l ih =>
    rw [List.flatMap_cons, List.getElem?_append, bytesOf_length]
    by_cases h : i < 64
    · rw [if_pos h, show i / 64 = 0 by omega, show i % 64 = i by omega]
      simp [bytesOf, h]
    · rw [if_neg h, ih, show i / 64 = (i - 64) / 64 + 1 by omega, show (i - 64) % 64 = i % 64 by omega]
      simp

theorem index_eq (t : PackedTable) (i : Nat) : goIndex (tableBytes t) i = t.index i := by
  unfold goIndex PackedTable.index
  rw [tableBytes, tableBytes_get]
  cases t.blocks[i / 64]? <;> rfl

theorem slice_bytes {l : List Nat} {v b : Nat} (h : l[v]? = some b) : slice (l.flatMap bytesOf) v = bytesOf b := by
  have hl := (List.getElem?_eq_some_iff.mp h).1
  apply List.ext_getElem?
  intro j
  by_cases hj : j < 64
  · rw [slice_get hj, tableBytes_get, show (64 * v + j) / 64 = v by omega, show (64 * v + j) % 64 = j by omega, h]
    simp [bytesOf, hj]
  · rw [List.getElem?_eq_none (by unfold slice; rw [List.length_take]; omega), List.getElem?_eq_none (by rw [bytesOf_length]; omega)]

theorem blockByte_inj {b b' : Nat} (h : b < 2 ^ 512) (h' : b' < 2 ^ 512) (e : bytesOf b = bytesOf b') : b = b' := by
  apply Nat.eq_of_testBit_eq
  intro i
  by_cases hi : i < 512
  · have := congrArg (·[63 - i / 8]?) e
    simp only [bytesOf, List.getElem?_map, List.getElem?_range (show 63 - i / 8 < 64 by omega), Option.map_some, Option.some.injEq,
      blockByte] at this
    have := congrArg UInt8.toNat this
    rw [UInt8.toNat_ofNat', UInt8.toNat_ofNat', show 63 - (63 - i / 8) = i / 8 by omega] at this
    have := congrArg (Nat.testBit · (i % 8)) this
    simp only [show (256 : Nat) = 2 ^ 8 from rfl, Nat.testBit_mod_two_pow, Nat.testBit_shiftRight,
      show i % 8 < 8 by omega, decide_true, Bool.true_and] at this
    rwa [show 8 * (i / 8) + i % 8 = i by omega] at this
  · have hp : 2 ^ 512 ≤ 2 ^ i := Nat.pow_le_pow_right (by omega) (by omega)
    rw [Nat.testBit_lt_two_pow (Nat.lt_of_lt_of_le h hp), Nat.testBit_lt_two_pow (Nat.lt_of_lt_of_le h' hp)]

/-- The shipped arrays. -/
def shippedP : List UInt8 := tableBytes lookupProps
def shippedI : List UInt16 := (tableBytes lookupIndices).map UInt8.toUInt16

theorem shippedP_length : shippedP.length = 64 * 236 := by
  rw [shippedP, tableBytes_length, props_length]

theorem shippedI_length : shippedI.length = 64 * 25 := by
  rw [shippedI, List.length_map, tableBytes_length, idx_length]

theorem slice_map {α β : Type} (f : α → β) (l : List α) (v : Nat) : slice (l.map f) v = (slice l v).map f := by
  unfold slice
  rw [List.map_take, List.map_drop]

theorem propBlockN_get {v b : Nat} (h : lookupProps.blocks[v]? = some b) : propBlockN v = b + 1 := by
  have hv := (List.getElem?_eq_some_iff.mp h).1
  rw [props_length] at hv
  cases hp : propBlockN v with
  | zero =>
    unfold propBlockN at hp
    rw [Nat.ble_eq.mpr (by omega : v ≤ 235), cond_true] at hp
    exact absurd hp (by simp)
  | succ b' =>
    rw [propBlockN_spec v b' hp] at h
    simp only [Option.some.injEq] at h
    rw [h]

theorem pb_ok (u v : Nat) (h : slice shippedP u = slice shippedP v) (hl : (slice shippedP v).length = 64) :
    propBlockN u = propBlockN v := by
  have hv := slice_length_of hl
  have hu := slice_length_of (l := shippedP) (v := u) (by rw [h, hl])
  rw [shippedP_length] at hu hv
  obtain ⟨b, hb⟩ : ∃ b, lookupProps.blocks[v]? = some b := ⟨_, List.getElem?_eq_getElem (by rw [props_length]; omega)⟩
  obtain ⟨c, hc⟩ : ∃ c, lookupProps.blocks[u]? = some c := ⟨_, List.getElem?_eq_getElem (by rw [props_length]; omega)⟩
  rw [shippedP, tableBytes, slice_bytes hb, slice_bytes hc] at h
  rw [propBlockN_get hb, propBlockN_get hc,
    blockByte_inj (props_small _ (List.mem_of_getElem? hc)) (props_small _ (List.mem_of_getElem? hb)) h]

/-- Index block `v` plus 1, or 0 if there is none. -/
def idxBlockN (v : Nat) : Nat :=
  cond (Nat.ble v 24) (Nat.succ (Nat.mod (Nat.shiftRight idxNum (Nat.mul 512 (Nat.sub 24 v))) (Nat.pow 2 512))) 0

theorem idxBlockN_get {v b : Nat} (h : lookupIndices.blocks[v]? = some b) : idxBlockN v = b + 1 := by
  have hv := (List.getElem?_eq_some_iff.mp h).1
  rw [idx_length] at hv
  rw [joinBlocks_get 512 _ idx_small 0 v (by rw [idx_length]; omega), idxNum_eq, idx_length] at h
  simp only [Option.some.injEq] at h
  unfold idxBlockN
  rw [Nat.ble_eq.mpr (by omega : v ≤ 24), cond_true, ← h]
  rfl

theorem ib_ok (u v : Nat) (h : slice shippedI u = slice shippedI v) (hl : (slice shippedI v).length = 64) :
    idxBlockN u = idxBlockN v := by
  have hv := slice_length_of hl
  have hu := slice_length_of (l := shippedI) (v := u) (by rw [h, hl])
  rw [shippedI_length] at hu hv
  obtain ⟨b, hb⟩ : ∃ b, lookupIndices.blocks[v]? = some b := ⟨_, List.getElem?_eq_getElem (by rw [idx_length]; omega)⟩
  obtain ⟨c, hc⟩ : ∃ c, lookupIndices.blocks[u]? = some c := ⟨_, List.getElem?_eq_getElem (by rw [idx_length]; omega)⟩
  rw [shippedI, tableBytes, slice_map, slice_map, slice_bytes hb, slice_bytes hc] at h
  have h : bytesOf c = bytesOf b := by
    apply List.map_inj_right (fun x y => ?_) |>.mp h
    intro e
    have := congrArg UInt16.toNat e
    simpa [UInt8.toNat_inj] using this
  rw [idxBlockN_get hb, idxBlockN_get hc,
    blockByte_inj (idx_small _ (List.mem_of_getElem? hc)) (idx_small _ (List.mem_of_getElem? hb)) h]

theorem shippedI_get {i : Nat} (h : i < 1600) : ∃ w : UInt16, shippedI[i]? = some w ∧ w.toNat = idxN i := by
  have h1 := idxN_spec i h
  rw [← index_eq] at h1
  have h2 : (tableBytes lookupIndices)[i]? = some (UInt8.ofNat (idxN i)) := by
    unfold goIndex at h1
    cases hg : (tableBytes lookupIndices)[i]? with
    | none => rw [hg] at h1; exact absurd h1 (by simp)
    | some x => rw [hg] at h1; simp only [Except.ok.injEq] at h1; rw [h1]
  refine ⟨(UInt8.ofNat (idxN i)).toUInt16, ?_, ?_⟩
  · rw [shippedI, List.getElem?_map, h2]; rfl
  · have := idxN_lt i
    rw [UInt8.toNat_toUInt16, UInt8.toNat_ofNat']
    omega

theorem ix_ok (i : Nat) (w : UInt16) (h : shippedI[i]? = some w) : idxN i = w.toNat := by
  have hi := (List.getElem?_eq_some_iff.mp h).1
  rw [shippedI_length] at hi
  obtain ⟨w', h1, h2⟩ := shippedI_get (i := i) (by omega)
  rw [h] at h1
  simp only [Option.some.injEq] at h1
  rw [h1, h2]

/-! ## The shipped table holds the properties -/

/-- The properties in the Unicode data files. -/
def ucdByte (c : Nat) : UInt8 := pack (ucd c)

theorem cpBlock_ok {k : Nat} (hk : k < 32768) : ∃ b, cpBlock k = b + 1 ∧ bytesOf b = blockF ucdByte k := by
  have key := fun j (hj : j < 64) => checkNode_sound cpBlock 15 0 _ _ _ table_check (64 * k + j) (by omega) (by omega)
  obtain ⟨b, hb, _⟩ := key 0 (by omega)
  rw [show (64 * k + 0) / 64 = k by omega] at hb
  refine ⟨b, hb, ?_⟩
  unfold bytesOf blockF
  apply List.map_congr_left
  intro j hj
  obtain ⟨b', hb', hv⟩ := key j (List.mem_range.mp hj)
  have hj := List.mem_range.mp hj
  rw [show (64 * k + j) / 64 = k by omega, hb] at hb'
  have : b = b' := by omega
  subst this
  rw [show (64 * k + j) % 64 = j by omega] at hv
  exact hv

theorem bytesOf_zero : bytesOf 0 = List.replicate 64 0 := by
  unfold bytesOf
  rw [List.map_congr_left (g := fun _ => (0 : UInt8)) (fun j _ => blockByte_zero j)]
  rfl

theorem ucdByte_big {k : Nat} (h1 : 17408 ≤ k) : blockF ucdByte k = List.replicate 64 0 := by
  unfold blockF
  rw [List.map_congr_left (g := fun _ => (0 : UInt8)) (fun j _ => by
    rw [ucdByte, ucd_big _ (by omega)]
    decide)]
  rfl

theorem reads_leaf {F : Nat → UInt8} {a b : Nat} {p : List Nat} (h : block2 a = b + 1) (hb : bytesOf b = leafF F p) :
    ∃ w : UInt16, shippedI[a]? = some w ∧ Reads (leafF F) shippedP shippedI 0 w.toNat p := by
  unfold block2 at h
  cases ha : Nat.ble a 1599
  · rw [ha] at h; exact absurd h (by simp)
  · rw [ha, cond_true] at h
    obtain ⟨w, h1, h2⟩ := shippedI_get (i := a) (by have := Nat.ble_eq.mp ha; omega)
    refine ⟨w, h1, ?_⟩
    show slice shippedP w.toNat = leafF F p
    rw [h2, shippedP, tableBytes, slice_bytes (propBlockN_spec _ _ h), hb]

theorem reads_one {F : Nat → UInt8} {a : Nat} {p : List Nat}
    (h : ∀ d, d < 64 → ∃ b, block3 a d = b + 1 ∧ bytesOf b = leafF F (p ++ [d])) :
    ∃ w : UInt16, shippedI[a]? = some w ∧ Reads (leafF F) shippedP shippedI 1 w.toNat p := by
  have ha : a ≤ 1599 := by
    obtain ⟨b, h1, _⟩ := h 0 (by omega)
    unfold block3 at h1
    cases ha : Nat.ble a 1599
    · rw [ha] at h1; exact absurd h1 (by simp)
    · exact Nat.ble_eq.mp ha
  obtain ⟨w, h1, h2⟩ := shippedI_get (i := a) (by omega)
  refine ⟨w, h1, ?_⟩
  intro d hd
  obtain ⟨b, h3, h4⟩ := h d hd
  unfold block3 at h3
  rw [Nat.ble_eq.mpr ha, cond_true] at h3
  rw [h2]
  exact reads_leaf h3 h4

theorem reads_two {F : Nat → UInt8} {a : Nat} {p : List Nat}
    (h : ∀ d e, d < 64 → e < 64 → ∃ b, block4 a d e = b + 1 ∧ bytesOf b = leafF F (p ++ [d] ++ [e])) :
    ∃ w : UInt16, shippedI[a]? = some w ∧ Reads (leafF F) shippedP shippedI 2 w.toNat p := by
  have ha : a ≤ 1599 := by
    obtain ⟨b, h1, _⟩ := h 0 0 (by omega) (by omega)
    unfold block4 at h1
    cases ha : Nat.ble a 1599
    · rw [ha] at h1; exact absurd h1 (by simp)
    · exact Nat.ble_eq.mp ha
  obtain ⟨w, h1, h2⟩ := shippedI_get (i := a) (by omega)
  refine ⟨w, h1, ?_⟩
  intro d hd
  have := fun e (he : e < 64) => h d e hd he
  unfold block4 at this
  rw [Nat.ble_eq.mpr ha] at this
  rw [h2]
  exact reads_one this

theorem high_check : (List.range 8).all (fun a => (List.range 64).all fun b => zeroBlocks (block4 (Nat.add 56 a) b) 0 64) = true := by
  decide +kernel

theorem leafF_some {F : Nat → UInt8} {p : List Nat} {k : Nat} (h : kOf p = some k) : leafF F p = blockF F k := by
  unfold leafF; rw [h]

theorem leafF_none {F : Nat → UInt8} {p : List Nat} (h : kOf p = none) : leafF F p = List.replicate 64 0 := by
  unfold leafF; rw [h]

theorem reads_root (i : Nat) (hi : i < 64) :
    ∃ w : UInt16, shippedI[i]? = some w ∧ Reads (leafF ucdByte) shippedP shippedI (lev i) w.toNat [i] := by
  unfold lev
  by_cases h32 : i < 32
  · rw [if_pos h32]
    by_cases h2 : 2 ≤ i
    · obtain ⟨b, h3, h4⟩ := cpBlock_ok (k := i) (by omega)
      have e : cpBlock i = block2 i := by
        unfold cpBlock
        rw [Bool.eq_false_iff.mpr (fun h => by have := Nat.ble_eq.mp h; omega : Nat.ble 1024 i ≠ true),
          Bool.eq_false_iff.mpr (fun h => by have := Nat.ble_eq.mp h; omega : Nat.ble 32 i ≠ true), Nat.ble_eq.mpr h2]
        rfl
      rw [e] at h3
      refine reads_leaf h3 ?_
      rw [leafF_some (k := i) (by simp only [kOf]; rw [if_pos (by omega)])]
      exact h4
    · have := zeroBlocks_sound _ _ _ overlong2_check i (by omega) (by omega)
      refine reads_leaf (b := 0) this ?_
      rw [leafF_none (by simp only [kOf]; rw [if_neg (by omega)]), bytesOf_zero]
  · rw [if_neg h32]
    by_cases h48 : i < 48
    · rw [if_pos h48]
      apply reads_one
      intro d hd
      by_cases hk : 32 ≤ (i - 32) * 64 + d
      · obtain ⟨b, h3, h4⟩ := cpBlock_ok (k := (i - 32) * 64 + d) (by omega)
        have e : cpBlock ((i - 32) * 64 + d) = block3 i d := by
          unfold cpBlock
          rw [Bool.eq_false_iff.mpr (fun h => by have := Nat.ble_eq.mp h; omega : Nat.ble 1024 ((i - 32) * 64 + d) ≠ true),
            Nat.ble_eq.mpr hk, cond_false, cond_true]
          have e1 : Nat.add 32 (Nat.div ((i - 32) * 64 + d) 64) = i := by
            show 32 + ((i - 32) * 64 + d) / 64 = i
            omega
          have e2 : Nat.mod ((i - 32) * 64 + d) 64 = d := by
            show ((i - 32) * 64 + d) % 64 = d
            omega
          rw [e1, e2]
        rw [e] at h3
        refine ⟨b, h3, ?_⟩
        rw [leafF_some (p := [i] ++ [d]) (k := (i - 32) * 64 + d) (by simp only [kOf, List.cons_append, List.nil_append]; rw [if_pos (by omega)])]
        exact h4
      · have hi32 : i = 32 := by omega
        subst hi32
        have := zeroBlocks_sound _ _ _ overlong3_check d (by omega) (by omega)
        refine ⟨0, this, ?_⟩
        rw [leafF_none (by simp only [kOf, List.cons_append, List.nil_append]; rw [if_neg (by omega)]), bytesOf_zero]
    · rw [if_neg h48]
      apply reads_two
      intro d e hd he
      show ∃ b, _ ∧ bytesOf b = leafF ucdByte [i, d, e]
      by_cases h56 : i < 56
      · by_cases hk : 1024 ≤ (i - 48) * 4096 + d * 64 + e
        · obtain ⟨b, h3, h4⟩ := cpBlock_ok (k := (i - 48) * 4096 + d * 64 + e) (by omega)
          have eq : cpBlock ((i - 48) * 4096 + d * 64 + e) = block4 i d e := by
            unfold cpBlock
            rw [Nat.ble_eq.mpr hk, cond_true]
            have e1 : Nat.add 48 (Nat.div ((i - 48) * 4096 + d * 64 + e) 4096) = i := by
              show 48 + ((i - 48) * 4096 + d * 64 + e) / 4096 = i
              omega
            have e2 : Nat.mod (Nat.div ((i - 48) * 4096 + d * 64 + e) 64) 64 = d := by
              show ((i - 48) * 4096 + d * 64 + e) / 64 % 64 = d
              omega
            have e3 : Nat.mod ((i - 48) * 4096 + d * 64 + e) 64 = e := by
              show ((i - 48) * 4096 + d * 64 + e) % 64 = e
              omega
            rw [e1, e2, e3]
          rw [eq] at h3
          refine ⟨b, h3, ?_⟩
          by_cases hbig : (i - 48) * 4096 + d * 64 + e < 17408
          · rw [leafF_some (k := (i - 48) * 4096 + d * 64 + e) (by simp only [kOf]; rw [if_pos (by omega)])]
            exact h4
          · rw [leafF_none (by simp only [kOf]; rw [if_neg (by omega)]), h4, ucdByte_big (by omega)]
        · have hi48 : i = 48 := by omega
          subst hi48
          have := List.all_eq_true.mp overlong4_check d (List.mem_range.mpr (by omega))
          have := zeroBlocks_sound _ _ _ this e (by omega) (by omega)
          refine ⟨0, this, ?_⟩
          rw [leafF_none (by simp only [kOf]; rw [if_neg (by omega)]), bytesOf_zero]
      · have := List.all_eq_true.mp high_check (i - 56) (List.mem_range.mpr (by omega))
        have := List.all_eq_true.mp this d (List.mem_range.mpr (by omega))
        have := zeroBlocks_sound _ _ _ this e (by omega) (by omega)
        rw [show Nat.add 56 (i - 56) = i by show 56 + (i - 56) = i; omega] at this
        refine ⟨0, this, ?_⟩
        rw [leafF_none (by simp only [kOf]; rw [if_neg (by omega)]), bytesOf_zero]

/-! ## The simulation -/

def simSizes : Nat × Nat :=
  match simRoot propBlockN idxBlockN idxN (List.range 64) ⟨2, 1, [1, 0], [], [], [], []⟩ with
  | some s => (s.np, s.ni)
  | none => (0, 0)

theorem sim_check : simSizes = (236, 25) := by decide +kernel

theorem pb01 : propBlockN 0 ≠ propBlockN 1 := by decide +kernel

theorem slice_ascii {k : Nat} (hk : k < 2) : slice shippedP k = blockF ucdByte k := by
  obtain ⟨b, h3, h4⟩ := cpBlock_ok (k := k) (by omega)
  have e : cpBlock k = propBlockN k := by
    unfold cpBlock
    rw [Bool.eq_false_iff.mpr (fun h => by have := Nat.ble_eq.mp h; omega : Nat.ble 1024 k ≠ true),
      Bool.eq_false_iff.mpr (fun h => by have := Nat.ble_eq.mp h; omega : Nat.ble 32 k ≠ true),
      Bool.eq_false_iff.mpr (fun h => by have := Nat.ble_eq.mp h; omega : Nat.ble 2 k ≠ true)]
    rfl
  rw [e] at h3
  rw [shippedP, tableBytes, slice_bytes (propBlockN_spec _ _ h3), h4]

theorem cfinal_shipped {cap : Nat} (hf : Final ucdByte (cfinal ucdByte cap)) :
    (cfinal ucdByte cap).props = shippedP ∧ (cfinal ucdByte cap).indices = shippedI := by
  have hs := sim_check
  unfold simSizes at hs
  cases h : simRoot propBlockN idxBlockN idxN (List.range 64) ⟨2, 1, [1, 0], [], [], [], []⟩ with
  | none => rw [h] at hs; exact absurd hs (by decide)
  | some s =>
    rw [h] at hs
    simp only [Prod.mk.injEq] at hs
    exact sim_final hf pb_ok ib_ok ix_ok reads_root (slice_ascii (by omega)) (slice_ascii (by omega)) pb01 h
      (by rw [shippedP_length, hs.1]) (by rw [shippedI_length, hs.2])

end Textseg.Gen
