import Verif.Model.Lookup
import Verif.Spec.UCD
import Verif.Proofs.TableNum
/-!
# The committed table agrees with the Unicode data files, on the whole code space

A checker that bisects the code space, restricting the range lists on the way, is proved sound; the kernel then runs it.
-/

namespace Textseg
open Spec

/-- The byte the Go code uses for a Grapheme_Cluster_Break value. -/
def gcbCode : GCB → UInt8
  | .Other => GCBNone | .CR => GCBCR | .LF => GCBLF | .Control => GCBControl | .Extend => GCBExtend | .ZWJ => GCBZWJ
  | .RegionalIndicator => GCBRegionalIndicator | .Prepend => GCBPrepend | .SpacingMark => GCBSpacingMark
  | .L => GCBL | .V => GCBV | .T => GCBT | .LV => GCBLV | .LVT => GCBLVT

/-- The byte the Go code uses for an Indic_Conjunct_Break value. -/
def incbCode : InCB → UInt8
  | .None => InCBNone | .Consonant => InCBConsonant | .Extend => InCBExtend | .Linker => InCBLinker

/-- The byte the Go code uses for the properties of a character. -/
def pack (p : CharProps) : UInt8 :=
  MakeCharProperties (gcbCode p.gcb) (if p.extPict then GCBExtendedPictographic else GCBNone) (incbCode p.incb)

/-! The functions of the checker are written with `Nat.ble`, `cond` etc. so that the kernel evaluates them quickly. -/

/-- `lookupRange`, for the kernel. -/
def lookupF {α : Type} (c : Nat) : List (Nat × Nat × α) → Option α
  | [] => none
  | (lo, hi, v) :: rs => cond (Nat.ble lo c) (cond (Nat.ble c hi) (some v) (lookupF c rs)) (lookupF c rs)

theorem lookupF_eq {α : Type} (c : Nat) (rs : List (Nat × Nat × α)) : lookupF c rs = lookupRange c rs := by
  induction rs with
  | nil => rfl
  | cons r rs ih =>
    obtain ⟨a, b, v⟩ := r
    simp only [lookupF, lookupRange, ih]
    by_cases h1 : a ≤ c <;> by_cases h2 : c ≤ b
    · simp [Nat.ble_eq.mpr h1, Nat.ble_eq.mpr h2, h1, h2]
    · simp [Nat.ble_eq.mpr h1, h2, Bool.eq_false_iff.mpr (fun h => h2 (Nat.ble_eq.mp h))]
    · simp [h1, Bool.eq_false_iff.mpr (fun h => h1 (Nat.ble_eq.mp h))]
    · simp [h1, Bool.eq_false_iff.mpr (fun h => h1 (Nat.ble_eq.mp h))]

/-- The part of a range list that can matter between `lo` and `hi`. -/
def restrict {α : Type} (lo hi : Nat) : List (Nat × Nat × α) → List (Nat × Nat × α)
  | [] => []
  | r :: rs =>
    cond (Nat.ble r.1 hi) (cond (Nat.ble lo r.2.1) (r :: restrict lo hi rs) (restrict lo hi rs)) (restrict lo hi rs)

theorem lookupRange_restrict {α : Type} {lo hi c : Nat} (h1 : lo ≤ c) (h2 : c ≤ hi) (rs : List (Nat × Nat × α)) :
    lookupRange c (restrict lo hi rs) = lookupRange c rs := by
  induction rs with
  | nil => rfl
  | cons r rs ih =>
    obtain ⟨a, b, v⟩ := r
    simp only [restrict]
    cases ha : Nat.ble a hi
    · have : ¬ a ≤ hi := fun h => by rw [Nat.ble_eq.mpr h] at ha; cases ha
      simp only [cond_false, lookupRange, ih]
      rw [if_neg (by omega)]
    · cases hb : Nat.ble lo b
      · have : ¬ lo ≤ b := fun h => by rw [Nat.ble_eq.mpr h] at hb; cases hb
        simp only [cond_false, cond_true, lookupRange, ih]
        rw [if_neg (by omega)]
      · simp only [cond_true, lookupRange, ih]

/-- `n` consecutive blocks from `k` are all zero (`blk k` is the block plus 1, or 0 if there is none). -/
def zeroBlocks (blk : Nat → Nat) : (k n : Nat) → Bool
  | _, 0 => true
  | k, n + 1 => cond (Nat.beq (blk k) 1) (zeroBlocks blk (Nat.succ k) n) false

def gcbCodeN : GCB → Nat
  | .Other => 0 | .CR => 1 | .LF => 6 | .Control => 2 | .Extend => 3 | .ZWJ => 14
  | .RegionalIndicator => 10 | .Prepend => 9 | .SpacingMark => 11
  | .L => 5 | .V => 13 | .T => 12 | .LV => 7 | .LVT => 8
def incbCodeN : InCB → Nat
  | .None => 0 | .Consonant => 16 | .Extend => 32 | .Linker => 48
def optG : Option GCB → Nat | none => 0 | some g => gcbCodeN g
def optE : Option Unit → Nat | none => 0 | some _ => 4
def optI : Option InCB → Nat | none => 0 | some g => incbCodeN g

def mkProps (G : Option GCB) (E : Option Unit) (I : Option InCB) : CharProps :=
  ⟨G.getD .Other, E.isSome, I.getD .None⟩

/-- The code (a number) for the three lookups. -/
def codeN (G : Option GCB) (E : Option Unit) (I : Option InCB) : Nat :=
  Nat.lor (optG G) (Nat.lor (optE E) (optI I))

theorem codeN_eq (G : Option GCB) (E : Option Unit) (I : Option InCB) :
    UInt8.ofNat (codeN G E I) = pack (mkProps G E I) := by
  rcases G with _ | g <;> rcases E with _ | e <;> rcases I with _ | i
  all_goals (try cases g) <;> (try cases e) <;> (try cases i) <;> decide

/-- The bytes of block `b` whose shift is `8 * (n - 1), ..., 8, 0`, for the code points from `c` on. -/
def checkBytes (b : Nat) (G : List (Nat × Nat × GCB)) (E : List (Nat × Nat × Unit)) (I : List (Nat × Nat × InCB)) :
    (c n : Nat) → Bool
  | _, 0 => true
  | c, n + 1 =>
    cond (Nat.beq (Nat.mod (Nat.shiftRight b (Nat.mul 8 n)) 256) (codeN (lookupF c G) (lookupF c E) (lookupF c I)))
      (checkBytes b G E I (Nat.succ c) n) false

/-- Checks the `2^d` blocks from block `k` on against the range lists. -/
def checkNode (blk : Nat → Nat) :
    (d k : Nat) → List (Nat × Nat × GCB) → List (Nat × Nat × Unit) → List (Nat × Nat × InCB) → Bool
  | 0, k, G, E, I =>
    match blk k with
    | b + 1 => checkBytes b G E I (Nat.mul 64 k) 64
    | 0 => false
  | d + 1, k, G, E, I =>
    match G, E, I with
    | [], [], [] => zeroBlocks blk k (Nat.pow 2 (Nat.succ d))
    | G, E, I =>
      cond (checkNode blk d k
          (restrict (Nat.mul 64 k) (Nat.pred (Nat.mul 64 (Nat.add k (Nat.pow 2 d)))) G)
          (restrict (Nat.mul 64 k) (Nat.pred (Nat.mul 64 (Nat.add k (Nat.pow 2 d)))) E)
          (restrict (Nat.mul 64 k) (Nat.pred (Nat.mul 64 (Nat.add k (Nat.pow 2 d)))) I))
        (checkNode blk d (Nat.add k (Nat.pow 2 d))
          (restrict (Nat.mul 64 (Nat.add k (Nat.pow 2 d))) (Nat.pred (Nat.mul 64 (Nat.add k (Nat.pow 2 (Nat.succ d))))) G)
          (restrict (Nat.mul 64 (Nat.add k (Nat.pow 2 d))) (Nat.pred (Nat.mul 64 (Nat.add k (Nat.pow 2 (Nat.succ d))))) E)
          (restrict (Nat.mul 64 (Nat.add k (Nat.pow 2 d))) (Nat.pred (Nat.mul 64 (Nat.add k (Nat.pow 2 (Nat.succ d))))) I))
        false

theorem zeroBlocks_sound (blk : Nat → Nat) (k n : Nat) (h : zeroBlocks blk k n = true) :
    ∀ m, k ≤ m → m < k + n → blk m = 1 := by
  induction n generalizing k with
  | zero => intro m h1 h2; omega
  | succ n ih =>
    simp only [zeroBlocks] at h
    cases hb : Nat.beq (blk k) 1
    · rw [hb] at h; cases h
    · rw [hb, cond_true] at h
      intro m h1 h2
      by_cases hm : m = k
      · rw [hm]; exact Nat.eq_of_beq_eq_true hb
      · exact ih (k + 1) h m (by omega) (by omega)

theorem checkBytes_sound (b : Nat) (G E I) (c n : Nat) (hn : n ≤ 64) (h : checkBytes b G E I c n = true) :
    ∀ i, i < n → blockByte b (64 - n + i) =
      pack (mkProps (lookupRange (c + i) G) (lookupRange (c + i) E) (lookupRange (c + i) I)) := by
  induction n generalizing c with
  | zero => intro i h1; omega
  | succ n ih =>
    simp only [checkBytes] at h
    cases hb : Nat.beq (Nat.mod (Nat.shiftRight b (Nat.mul 8 n)) 256) (codeN (lookupF c G) (lookupF c E) (lookupF c I))
    · rw [hb] at h; cases h
    · rw [hb, cond_true] at h
      intro i hi
      cases i with
      | zero =>
        have := Nat.eq_of_beq_eq_true hb
        rw [lookupF_eq, lookupF_eq, lookupF_eq] at this
        simp only [Nat.add_zero]
        rw [← codeN_eq, ← this]
        simp only [blockByte]
        rw [show 63 - (64 - (n + 1)) = n by omega]
        rfl
      | succ i =>
        have := ih (c + 1) (by omega) h i (by omega)
        rw [show 64 - (n + 1) + (i + 1) = 64 - n + i by omega, show c + (i + 1) = c + 1 + i by omega]
        exact this

theorem blockByte_zero (j : Nat) : blockByte 0 j = 0 := by
  simp [blockByte]

theorem pack_none : pack (mkProps none none none) = 0 := by decide

theorem checkNode_sound (blk : Nat → Nat) (d k : Nat) (G E I) (h : checkNode blk d k G E I = true) :
    ∀ c, 64 * k ≤ c → c < 64 * (k + 2 ^ d) → ∃ b, blk (c / 64) = b + 1 ∧
      blockByte b (c % 64) = pack (mkProps (lookupRange c G) (lookupRange c E) (lookupRange c I)) := by
  induction d generalizing k G E I with
  | zero =>
    intro c h1 h2
    simp only [checkNode] at h
    have hk : c / 64 = k := by omega
    split at h
    · next b hb =>
      refine ⟨b, by rw [hk]; exact hb, ?_⟩
      have := checkBytes_sound b G E I (64 * k) 64 (by omega) h (c % 64) (by omega)
      rw [show 64 * k + c % 64 = c by omega, show 64 - 64 + c % 64 = c % 64 by omega] at this
      exact this
    · cases h
  | succ d ih =>
    intro c h1 h2
    have key : ∀ G E I, (cond (checkNode blk d k
          (restrict (64 * k) (Nat.pred (64 * (k + 2 ^ d))) G)
          (restrict (64 * k) (Nat.pred (64 * (k + 2 ^ d))) E)
          (restrict (64 * k) (Nat.pred (64 * (k + 2 ^ d))) I))
        (checkNode blk d (k + 2 ^ d)
          (restrict (64 * (k + 2 ^ d)) (Nat.pred (64 * (k + 2 ^ (d + 1)))) G)
          (restrict (64 * (k + 2 ^ d)) (Nat.pred (64 * (k + 2 ^ (d + 1)))) E)
          (restrict (64 * (k + 2 ^ d)) (Nat.pred (64 * (k + 2 ^ (d + 1)))) I)) false) = true →
          ∃ b, blk (c / 64) = b + 1 ∧
      blockByte b (c % 64) = pack (mkProps (lookupRange c G) (lookupRange c E) (lookupRange c I)) := by
      intro G E I h
      rw [Bool.cond_eq_ite] at h
      split at h
      · next h' =>
        have h2p : 2 ^ (d + 1) = 2 ^ d + 2 ^ d := by omega
        have hpos : 0 < 2 ^ d := Nat.two_pow_pos d
        by_cases hc : c < 64 * (k + 2 ^ d)
        · obtain ⟨b, hb, hv⟩ := ih k _ _ _ h' c h1 hc
          refine ⟨b, hb, ?_⟩
          have hp : c ≤ Nat.pred (64 * (k + 2 ^ d)) := by rw [Nat.pred_eq_sub_one]; omega
          rwa [lookupRange_restrict h1 hp, lookupRange_restrict h1 hp, lookupRange_restrict h1 hp] at hv
        · have hm : 64 * (k + 2 ^ d) ≤ c := by omega
          obtain ⟨b, hb, hv⟩ := ih (k + 2 ^ d) _ _ _ h c hm (by omega)
          refine ⟨b, hb, ?_⟩
          have hp : c ≤ Nat.pred (64 * (k + 2 ^ (d + 1))) := by rw [Nat.pred_eq_sub_one]; omega
          rwa [lookupRange_restrict hm hp, lookupRange_restrict hm hp, lookupRange_restrict hm hp] at hv
      · cases h
    unfold checkNode at h
    split at h
    · refine ⟨0, zeroBlocks_sound blk k _ h _ (by omega) ?_, ?_⟩
      · show c / 64 < k + 2 ^ (d + 1)
        omega
      · simp only [lookupRange, pack_none, blockByte_zero]
    · exact key _ _ _ h

/-! ## The block of property bytes selected by the index table -/

/-- A table as one number: the blocks are the digits to base `2^w`, the first block on top. -/
def joinBlocks (w : Nat) : List Nat → Nat → Nat
  | [], acc => acc
  | b :: bs, acc => joinBlocks w bs (acc * 2 ^ w + b)

theorem joinBlocks_acc (w : Nat) (bs : List Nat) (acc : Nat) :
    joinBlocks w bs acc = acc * 2 ^ (w * bs.length) + joinBlocks w bs 0 := by
  induction bs generalizing acc with
  | nil => simp [joinBlocks]
  | cons b bs ih =>
    simp only [joinBlocks, List.length_cons]
    rw [ih, ih (0 * 2 ^ w + b), Nat.mul_succ, Nat.pow_add, Nat.add_mul, Nat.zero_mul, Nat.zero_add, Nat.mul_assoc,
      Nat.mul_comm (2 ^ w) (2 ^ (w * bs.length)), Nat.add_assoc]

theorem joinBlocks_lt (w : Nat) (bs : List Nat) (h : ∀ b ∈ bs, b < 2 ^ w) : joinBlocks w bs 0 < 2 ^ (w * bs.length) := by
  induction bs with
  | nil => simp [joinBlocks]
  | cons b bs ih =>
    simp only [joinBlocks, List.length_cons]
    rw [joinBlocks_acc]
    have hb : b < 2 ^ w := h b (by simp)
    have := ih (fun x hx => h x (by simp [hx]))
    have hp : 2 ^ (w * (bs.length + 1)) = 2 ^ w * 2 ^ (w * bs.length) := by
      rw [← Nat.pow_add, Nat.mul_succ, Nat.add_comm]
    rw [hp, Nat.zero_mul, Nat.zero_add]
    calc b * 2 ^ (w * bs.length) + joinBlocks w bs 0 < b * 2 ^ (w * bs.length) + 2 ^ (w * bs.length) := by omega
      _ = (b + 1) * 2 ^ (w * bs.length) := by rw [Nat.add_mul, Nat.one_mul]
      _ ≤ _ := Nat.mul_le_mul_right _ hb

theorem joinBlocks_get (w : Nat) (bs : List Nat) (h : ∀ b ∈ bs, b < 2 ^ w) (acc i : Nat) (hi : i < bs.length) :
    bs[i]? = some ((joinBlocks w bs acc >>> (w * (bs.length - 1 - i))) % 2 ^ w) := by
  induction bs generalizing acc i with
  | nil => simp at hi
  | cons b bs ih =>
    cases i with
    | zero =>
      simp only [joinBlocks, List.length_cons, Nat.add_sub_cancel, Nat.sub_zero, List.getElem?_cons_zero]
      rw [joinBlocks_acc, Nat.shiftRight_eq_div_pow, Nat.mul_comm _ (2 ^ (w * bs.length)),
        Nat.mul_add_div (Nat.two_pow_pos _), Nat.div_eq_of_lt (joinBlocks_lt w bs (fun x hx => h x (by simp [hx]))),
        Nat.add_zero, Nat.mul_comm, Nat.mul_add_mod, Nat.mod_eq_of_lt (h b (by simp))]
    | succ i =>
      simp only [List.getElem?_cons_succ, joinBlocks, List.length_cons]
      rw [ih (fun x hx => h x (by simp [hx])) (acc * 2 ^ w + b) i (by simpa using hi)]
      rw [show bs.length + 1 - 1 - (i + 1) = bs.length - 1 - i by omega]

set_option exponentiation.threshold 600

theorem idxNum_eq : joinBlocks 512 lookupIndices.blocks 0 = idxNum := by decide +kernel
theorem propsNum_eq : joinBlocks 512 lookupProps.blocks 0 = propsNum := by decide +kernel
theorem idx_small : ∀ b ∈ lookupIndices.blocks, b < 2 ^ 512 := by decide +kernel
theorem props_small : ∀ b ∈ lookupProps.blocks, b < 2 ^ 512 := by decide +kernel
theorem idx_length : lookupIndices.blocks.length = 25 := by decide +kernel
theorem props_length : lookupProps.blocks.length = 236 := by decide +kernel

/-- Property block `i` plus 1, or 0 if there is none. -/
def propBlockN (i : Nat) : Nat :=
  cond (Nat.ble i 235) (Nat.succ (Nat.mod (Nat.shiftRight propsNum (Nat.mul 512 (Nat.sub 235 i))) (Nat.pow 2 512))) 0

theorem propBlockN_spec (i b : Nat) (h : propBlockN i = b + 1) : lookupProps.blocks[i]? = some b := by
  unfold propBlockN at h
  cases hi : Nat.ble i 235
  · rw [hi] at h; cases h
  · rw [hi, cond_true, Nat.succ_eq_add_one, Nat.add_right_cancel_iff] at h
    have hi' : i ≤ 235 := Nat.ble_eq.mp hi
    rw [joinBlocks_get 512 _ props_small 0 i (by rw [props_length]; omega), propsNum_eq, props_length, ← h]
    rfl

/-- Entry `i` of `lookupIndices`, as a number (for `i < 1600`). -/
def idxN (i : Nat) : Nat := Nat.mod (Nat.shiftRight idxNum (Nat.mul 8 (Nat.sub 1599 i))) 256

theorem idxN_spec (i : Nat) (h : i < 1600) : lookupIndices.index i = .ok (UInt8.ofNat (idxN i)) := by
  unfold PackedTable.index
  rw [joinBlocks_get 512 _ idx_small 0 (i / 64) (by rw [idx_length]; omega), idxNum_eq, idx_length]
  simp only [blockByte, idxN]
  congr 2
  show _ = (idxNum >>> (8 * (1599 - i))) % 256
  rw [show (256 : Nat) = 2 ^ 8 by decide]
  apply Nat.eq_of_testBit_eq
  intro j
  simp only [Nat.testBit_mod_two_pow, Nat.testBit_shiftRight]
  by_cases hj : j < 8
  · simp only [hj, decide_true, Bool.true_and]
    rw [decide_eq_true (by omega : 8 * (63 - i % 64) + j < 512), Bool.true_and]
    congr 1
    omega
  · simp [hj]

theorem idxN_lt (i : Nat) : idxN i < 256 := Nat.mod_lt _ (by decide)

/-- Block of a two-byte sequence with 6-bit group `a` of the first byte (plus 1, or 0 if there is none). -/
def block2 (a : Nat) : Nat := cond (Nat.ble a 1599) (propBlockN (idxN a)) 0
def block3 (a b : Nat) : Nat := cond (Nat.ble a 1599) (block2 (Nat.add (Nat.mul 64 (idxN a)) b)) 0
def block4 (a b c : Nat) : Nat := cond (Nat.ble a 1599) (block3 (Nat.add (Nat.mul 64 (idxN a)) b) c) 0

/-- Block of the code points `64 k, ..., 64 k + 63`. -/
def cpBlock (k : Nat) : Nat :=
  cond (Nat.ble 1024 k) (block4 (Nat.add 48 (Nat.div k 4096)) (Nat.mod (Nat.div k 64) 64) (Nat.mod k 64))
    (cond (Nat.ble 32 k) (block3 (Nat.add 32 (Nat.div k 64)) (Nat.mod k 64))
      (cond (Nat.ble 2 k) (block2 k) (propBlockN k)))

theorem table_check : checkNode cpBlock 15 0 graphemeBreakProperty extendedPictographic indicConjunctBreak = true := by
  decide +kernel

/-- overlong two-byte sequences -/
theorem overlong2_check : zeroBlocks block2 0 2 = true := by decide +kernel
/-- overlong three-byte sequences -/
theorem overlong3_check : zeroBlocks (block3 32) 0 32 = true := by decide +kernel
/-- overlong four-byte sequences -/
theorem overlong4_check : (List.range 16).all (fun b => zeroBlocks (block4 48 b) 0 64) = true := by decide +kernel

end Textseg
