import Verif.Proofs.TableText
import Verif.Proofs.GenRender
/-!
# Data files embedded as numbers: what their lines mean

A checker that the kernel can evaluate quickly on the lines of the Unicode data files (all of them have the same layout: a range
in 14 columns, the fields, a comment), and its soundness.
-/

namespace Textseg

theorem textLine_cons (n : Nat) (h : n % 256 ≠ 0) : textLine n = UInt8.ofNat (n % 256) :: textLine (n / 256) := by
  have := textLine_add (n % 256) (n / 256) (by omega) (by omega)
  rwa [show n % 256 + 256 * (n / 256) = n by omega] at this

/-- The number of a list of bytes. -/
def numOf : List UInt8 → Nat
  | [] => 0
  | b :: bs => b.toNat + 256 * numOf bs

theorem textLine_prefix : ∀ (bs : List UInt8) (n : Nat), 0 ∉ bs → n % 256 ^ bs.length = numOf bs →
    textLine n = bs ++ textLine (n / 256 ^ bs.length)
  | [], n, _, _ => by simp
  | b :: bs, n, h, e => by
    have hb : b.toNat < 256 := b.toNat_lt
    have hb0 : b.toNat ≠ 0 := fun h' => h (by rw [show b = 0 from UInt8.toNat_inj.mp h']; exact List.mem_cons_self)
    rw [List.length_cons, Nat.pow_succ', Nat.mod_mul, numOf] at e
    have e1 : n % 256 = b.toNat := by omega
    have e2 : n / 256 % 256 ^ bs.length = numOf bs := by omega
    rw [textLine_cons n (by omega), e1, textLine_prefix bs _ (fun h' => h (List.mem_cons_of_mem _ h')) e2, List.length_cons,
      Nat.pow_succ', Nat.div_div_eq_div_mul]
    simp

theorem bytesLE_mem : ∀ (f n : Nat) (b : UInt8), b ∈ bytesLE f n → ∃ j, b = UInt8.ofNat (n / 256 ^ j % 256) ∧ 256 ^ j ≤ n
  | 0, _, _, h => by cases h
  | f + 1, n, b, h => by
    rw [bytesLE] at h
    split at h
    · cases h
    · rename_i hn
      rcases List.mem_cons.mp h with h | h
      · exact ⟨0, by simpa using h, by simp; omega⟩
      · obtain ⟨j, h1, h2⟩ := bytesLE_mem f _ b h
        refine ⟨j + 1, ?_, ?_⟩
        · rw [h1, Nat.pow_succ', Nat.div_div_eq_div_mul]
        · rw [Nat.pow_succ]
          exact (Nat.le_div_iff_mul_le (by omega)).mp h2

theorem bytesLE_length : ∀ (k f n : Nat), n < 256 ^ k → (bytesLE f n).length ≤ k
  | _, 0, _, _ => by simp [bytesLE]
  | 0, f + 1, n, h => by
    obtain rfl : n = 0 := by simpa using h
    simp [bytesLE]
  | k + 1, f + 1, n, h => by
    rw [bytesLE]
    split
    · simp
    · have := bytesLE_length k f (n / 256) (by
        rw [Nat.div_lt_iff_lt_mul (by omega)]
        rwa [Nat.pow_succ] at h)
      simp only [List.length_cons]
      omega

end Textseg

namespace Textseg.Gen
open Textseg Spec

/-- Byte `b` of this number is one more than the value of the hexadecimal digit `b`, or 0. -/
def digitTable : Nat := 0x100F0E0D0C0B000000000000000A090807060504030201000000000000000000000000000000000000000000000000000000000000000000000000000000000000000000000000

def digitCode (b : Nat) : Nat := Nat.mod (Nat.shiftRight digitTable (Nat.mul 8 b)) 256

/-- The value of the first digit of `n`. -/
def digitOf {α : Type} (n : Nat) (k : Nat → Option α) : Option α :=
  match digitCode (Nat.mod n 256) with
  | 0 => none
  | v + 1 => k v

def hex4 {α : Type} (n : Nat) (k : Nat → Option α) : Option α :=
  digitOf n fun a => digitOf (Nat.shiftRight n 8) fun b => digitOf (Nat.shiftRight n 16) fun c => digitOf (Nat.shiftRight n 24) fun d =>
    k (Nat.add (Nat.mul 16 (Nat.add (Nat.mul 16 (Nat.add (Nat.mul 16 a) b)) c)) d)

def hex5 {α : Type} (n : Nat) (k : Nat → Option α) : Option α :=
  hex4 n fun v => digitOf (Nat.shiftRight n 32) fun d => k (Nat.add (Nat.mul 16 v) d)

/-- The range in the first 14 columns. -/
def rangeN {α : Type} (n : Nat) (k : Nat → Nat → Option α) : Option α :=
  cond (Nat.beq (Nat.mod (Nat.shiftRight n 32) 0x100000000000000000000) 0x20202020202020202020) (hex4 n fun v => k v v)
  (cond (Nat.beq (Nat.mod (Nat.shiftRight n 40) 0x1000000000000000000) 0x202020202020202020) (hex5 n fun v => k v v)
  (cond (Nat.beq (Nat.mod (Nat.shiftRight n 32) 0x10000) 0x2E2E)
    (cond (Nat.beq (Nat.mod (Nat.shiftRight n 80) 0x100000000) 0x20202020) (hex4 n fun v => hex4 (Nat.shiftRight n 48) fun w => k v w) none)
  (cond (Nat.beq (Nat.mod (Nat.shiftRight n 40) 0x10000) 0x2E2E)
    (cond (Nat.beq (Nat.mod (Nat.shiftRight n 96) 0x10000) 0x2020) (hex5 n fun v => hex5 (Nat.shiftRight n 56) fun w => k v w) none) none)))

/-- What may follow the range: a semicolon, fields with spaces around them, `#`. `tag` is 0 if such a line is irrelevant. -/
structure Kind where
  text : Nat
  size : Nat
  tag : Nat
  fields : List (Nat × List UInt8 × Nat)

def kindN {α : Type} (n : Nat) (k : Nat → Option α) : List Kind → Option α
  | [] => none
  | ⟨text, size, tag, _⟩ :: xs => cond (Nat.beq (Nat.mod n size) text) (k tag) (kindN n k xs)

/-- 256 bytes with the value 1 -/
def ones : Nat := 0x101010101010101010101010101010101010101010101010101010101010101010101010101010101010101010101010101010101010101010101010101010101010101010101010101010101010101010101010101010101010101010101010101010101010101010101010101010101010101010101010101010101010101010101010101010101010101010101010101010101010101010101010101010101010101010101010101010101010101010101010101010101010101010101010101010101010101010101010101010101010101010101010101010101010101010101010101010101010101010101010101010101010101010101010101010101010101010101010101

/-- At most so many bits, and each byte that has bit 1 or bit 2 also has one of the upper four bits: so none is 0x0A or 0x0D. -/
def lineN (bits ones n : Nat) : Bool :=
  cond (Nat.beq (Nat.shiftRight n bits) 0)
  (Nat.beq (Nat.land (Nat.lor (Nat.lor (Nat.shiftRight n 1) (Nat.shiftRight n 2)) (Nat.lor (Nat.lor (Nat.shiftRight n 4) (Nat.shiftRight n 5)) (Nat.lor (Nat.shiftRight n 6) (Nat.shiftRight n 7)))) ones)
    (Nat.land (Nat.lor (Nat.lor (Nat.shiftRight n 4) (Nat.shiftRight n 5)) (Nat.lor (Nat.shiftRight n 6) (Nat.shiftRight n 7))) ones)) false

/-- Reads the lines and removes the relevant entries from the expected ones. -/
def linesN {γ : Type} (tag : γ → Nat) (kinds : List Kind) : List Nat → List (Nat × Nat × γ) → Option (List (Nat × Nat × γ))
  | [], exp => some exp
  | n :: ns, exp =>
    cond (lineN 2048 ones n)
      (cond (Nat.beq n 0) (linesN tag kinds ns exp)
      (cond (Nat.beq (Nat.mod n 256) 35) (linesN tag kinds ns exp)
        (rangeN n fun lo hi => kindN (Nat.shiftRight n 112) (fun t => cond (Nat.beq t 0) (linesN tag kinds ns exp)
          (match exp with
          | (lo', hi', g) :: exp' => cond (Nat.beq lo lo') (cond (Nat.beq hi hi') (cond (Nat.beq t (tag g)) (linesN tag kinds ns exp') none) none) none
          | [] => none)) kinds)))
      none

def partsN {γ : Type} (tag : γ → Nat) (kinds : List Kind) : List (List Nat) → List (Nat × Nat × γ) → Option (List (Nat × Nat × γ))
  | [], exp => some exp
  | p :: ps, exp => match linesN tag kinds p exp with
    | none => none
    | some exp' => partsN tag kinds ps exp'

def allRead {α : Type} : Option (List α) → Bool
  | some [] => true
  | _ => false

/-! ## Soundness -/

theorem ones_bit : ∀ j : Fin 256, ones.testBit (8 * j.val) = true := by decide +kernel

theorem byte_bit (n j i : Nat) (h : i < 8) : (n / 256 ^ j % 256).testBit i = n.testBit (8 * j + i) := by
  rw [show (256 : Nat) = 2 ^ 8 from rfl, ← Nat.pow_mul, Nat.testBit_mod_two_pow, Nat.testBit_div_two_pow]
  simp [h, Nat.add_comm]

theorem lineN_sound {k ones n : Nat} (hones : ∀ j, j < k → ones.testBit (8 * j) = true) (h : lineN (8 * k) ones n = true) :
    newline ∉ textLine n ∧ carriageReturn ∉ textLine n ∧ (textLine n).length ≤ k := by
  unfold lineN at h
  have h1 : Nat.beq (Nat.shiftRight n (8 * k)) 0 = true := by
    cases hc : Nat.beq (Nat.shiftRight n (8 * k)) 0
    · rw [hc] at h; cases h
    · rfl
  rw [h1] at h
  have h2 := Nat.eq_of_beq_eq_true h
  have h1 := Nat.eq_of_beq_eq_true h1
  have hn : n < 256 ^ k := by
    have : n >>> (8 * k) = 0 := h1
    rw [Nat.shiftRight_eq_div_pow] at this
    rw [show (256 : Nat) ^ k = 2 ^ (8 * k) by rw [Nat.pow_mul]]
    exact (Nat.div_eq_zero_iff_lt (Nat.two_pow_pos _)).mp this
  have key : ∀ b : UInt8, b ∈ textLine n → (b.toNat.testBit 1 || b.toNat.testBit 2) = true →
      (b.toNat.testBit 4 || b.toNat.testBit 5 || b.toNat.testBit 6 || b.toNat.testBit 7) = true := by
    intro b hb hbit
    obtain ⟨j, e, hj⟩ := bytesLE_mem _ _ _ hb
    have hj' : j < k := (Nat.pow_lt_pow_iff_right (by omega)).mp (Nat.lt_of_le_of_lt hj hn)
    have eb : ∀ i, i < 8 → b.toNat.testBit i = n.testBit (8 * j + i) := by
      intro i hi
      rw [e, UInt8.toNat_ofNat', Nat.mod_eq_of_lt (show n / 256 ^ j % 256 < 2 ^ 8 from Nat.mod_lt _ (by omega)), byte_bit n j i hi]
    have := congrArg (fun x => Nat.testBit x (8 * j)) h2
    simp only [show ∀ a b, Nat.land a b = a &&& b from fun _ _ => rfl, show ∀ a b, Nat.lor a b = a ||| b from fun _ _ => rfl,
      show ∀ a b, Nat.shiftRight a b = a >>> b from fun _ _ => rfl,
      Nat.testBit_and, Nat.testBit_or, Nat.testBit_shiftRight, hones j hj', Bool.and_true] at this
    rw [eb 1 (by omega), eb 2 (by omega)] at hbit
    rw [eb 4 (by omega), eb 5 (by omega), eb 6 (by omega), eb 7 (by omega)]
    rw [Nat.add_comm 1, Nat.add_comm 2, Nat.add_comm 4, Nat.add_comm 5, Nat.add_comm 6, Nat.add_comm 7, hbit, Bool.true_or] at this
    simp only [Bool.or_assoc] at this ⊢
    exact this.symm
  refine ⟨fun hm => ?_, fun hm => ?_, bytesLE_length _ _ _ hn⟩
  · exact absurd (key _ hm (by decide)) (by decide)
  · exact absurd (key _ hm (by decide)) (by decide)

theorem digitCode_spec : ∀ b : Fin 256, digitCode b.val = 0 ∨
    ∃ d : Fin 16, digitCode b.val = d.val + 1 ∧ UInt8.ofNat b.val = hexDigitByte d true ∧ b.val ≠ 0 := by decide +kernel

theorem digitOf_sound {α : Type} {n : Nat} {k : Nat → Option α} {r : α} (h : digitOf n k = some r) :
    ∃ d : Fin 16, textLine n = hexDigitByte d true :: textLine (n / 256) ∧ k d.val = some r := by
  unfold digitOf at h
  rcases digitCode_spec ⟨n % 256, Nat.mod_lt _ (by omega)⟩ with e | ⟨d, e, h1, h2⟩
  · simp only at e
    rw [show Nat.mod n 256 = n % 256 from rfl, e] at h
    cases h
  · simp only at e h1 h2
    rw [show Nat.mod n 256 = n % 256 from rfl, e] at h
    exact ⟨d, by rw [textLine_cons n h2, h1], h⟩

/-- `n` begins with a numeral of `w` digits, and goes on with `n'`. -/
def Numeral (w n n' v : Nat) : Prop :=
  ∃ ds, textLine n = ds ++ textLine n' ∧ IsHex ds v ∧ (∀ b ∈ ds, Plain b) ∧ v < 16 ^ w

theorem shiftRight_succ (n w : Nat) : Nat.shiftRight n w / 256 = Nat.shiftRight n (w + 8) := by
  show (n >>> w) / 256 = n >>> (w + 8)
  rw [Nat.shiftRight_add]
  exact (Nat.shiftRight_eq_div_pow _ 8).symm

theorem numeral_snoc {α : Type} {w n n' v : Nat} {k : Nat → Option α} {r : α} (hd : Numeral w n n' v)
    (h : digitOf n' k = some r) : ∃ d, Numeral (w + 1) n (n' / 256) (Nat.add (Nat.mul 16 v) d) ∧ k d = some r := by
  obtain ⟨ds, h1, h2, h3, h4⟩ := hd
  obtain ⟨d, e, hk⟩ := digitOf_sound h
  refine ⟨d.val, ⟨ds ++ [hexDigitByte d true], by rw [h1, e]; simp, ?_, ?_, ?_⟩, hk⟩
  · rw [show Nat.add (Nat.mul 16 v) d.val = v * 16 + d.val by
      show 16 * v + d.val = _
      omega]
    exact .snoc _ _ _ _ h2
  · intro b hb
    rcases List.mem_append.mp hb with hb | hb
    · exact h3 b hb
    · rw [List.mem_singleton.mp hb]; exact plain_hexDigit d
  · show 16 * v + d.val < _
    have := d.isLt
    rw [Nat.pow_succ]
    omega

theorem hex4_sound {α : Type} {n : Nat} {k : Nat → Option α} {r : α} (h : hex4 n k = some r) :
    ∃ v, Numeral 4 n (Nat.shiftRight n 32) v ∧ k v = some r := by
  unfold hex4 at h
  obtain ⟨a, e, h⟩ := digitOf_sound h
  have h0 : Numeral 1 n (n / 256) a.val := ⟨[hexDigitByte a true], e, .digit a true, by
    intro b hb; rw [List.mem_singleton.mp hb]; exact plain_hexDigit a, a.isLt⟩
  rw [show n / 256 = Nat.shiftRight n 8 from (Nat.shiftRight_eq_div_pow n 8).symm] at h0
  obtain ⟨b, h0, h⟩ := numeral_snoc h0 h
  rw [shiftRight_succ] at h0
  obtain ⟨c, h0, h⟩ := numeral_snoc h0 h
  rw [shiftRight_succ] at h0
  obtain ⟨d, h0, h⟩ := numeral_snoc h0 h
  rw [shiftRight_succ] at h0
  exact ⟨_, h0, h⟩

theorem hex5_sound {α : Type} {n : Nat} {k : Nat → Option α} {r : α} (h : hex5 n k = some r) :
    ∃ v, Numeral 5 n (Nat.shiftRight n 40) v ∧ k v = some r := by
  unfold hex5 at h
  obtain ⟨v, h0, h⟩ := hex4_sound h
  obtain ⟨d, h0, h⟩ := numeral_snoc h0 h
  rw [shiftRight_succ] at h0
  exact ⟨_, h0, h⟩

theorem shift_shift (n a b : Nat) : Nat.shiftRight (Nat.shiftRight n a) b = Nat.shiftRight n (a + b) := (Nat.shiftRight_add n a b).symm

theorem shift_prefix (bs : List UInt8) (n a : Nat) (m c : Nat) (h0 : 0 ∉ bs) (hm : 256 ^ bs.length = m) (hc : numOf bs = c)
    (h : Nat.beq (Nat.mod (Nat.shiftRight n a) m) c = true) :
    textLine (Nat.shiftRight n a) = bs ++ textLine (Nat.shiftRight n (a + 8 * bs.length)) := by
  have e := Nat.eq_of_beq_eq_true h
  rw [textLine_prefix bs _ h0 (by rw [hm, hc]; exact e), ← shift_shift, show Nat.shiftRight (Nat.shiftRight n a) (8 * bs.length) =
    Nat.shiftRight n a / 2 ^ (8 * bs.length) from Nat.shiftRight_eq_div_pow _ _, Nat.pow_mul]

/-- Spaces. -/
theorem blanks_spaces (k : Nat) : IsSpaces (List.replicate k 0x20) :=
  ⟨List.replicate k ' ', by
    intro c hc
    rw [(List.mem_replicate.mp hc).2]
    decide +kernel, by
    induction k with
    | zero => rfl
    | succ k ih => rw [List.replicate_succ, List.replicate_succ, utf8, List.flatMap_cons, ← utf8, ← ih]; rfl⟩

theorem padded_blanks {t : List UInt8} (h : ∀ b ∈ t, Plain b) (i j : Nat) : Padded t (List.replicate i 0x20 ++ t ++ List.replicate j 0x20) :=
  ⟨(padded_plain h).1, _, _, blanks_spaces i, blanks_spaces j, rfl⟩

/-- The first 14 columns. -/
structure IsRange (n lo hi : Nat) : Prop where
  ex : ∃ rng j, textLine n = rng ++ List.replicate j 0x20 ++ textLine (Nat.shiftRight n 112) ∧ (∀ b ∈ rng, Plain b) ∧ RangeText rng lo hi
  lo : lo < 2 ^ 20
  hi : hi < 2 ^ 20

theorem beq_cond {α : Type} {c : Bool} {x y : Option α} {r : α} (h : cond c x y = some r) :
    (c = true ∧ x = some r) ∨ (c = false ∧ y = some r) := by
  cases c
  · exact .inr ⟨rfl, h⟩
  · exact .inl ⟨rfl, h⟩

theorem isRange_one {w n v j a : Nat} (h : Numeral w n (Nat.shiftRight n a) v) (hw : 16 ^ w ≤ 2 ^ 20) (m c : Nat)
    (hm : 256 ^ (List.replicate j (0x20 : UInt8)).length = m) (hc : numOf (List.replicate j 0x20) = c) (hj : a + 8 * j = 112)
    (hs : Nat.beq (Nat.mod (Nat.shiftRight n a) m) c = true) : IsRange n v v := by
  obtain ⟨ds, h1, h2, h3, h4⟩ := h
  refine ⟨⟨ds, j, ?_, h3, by omega, by omega, .inl ⟨h2, rfl⟩⟩, by omega, by omega⟩
  rw [h1, shift_prefix _ n a m c (by simp [List.mem_replicate]) hm hc hs, List.length_replicate, hj]
  simp

theorem isRange_two {w n v v' j a : Nat} (h : Numeral w n (Nat.shiftRight n a) v) (hw : 16 ^ w ≤ 2 ^ 20)
    (hd : Nat.beq (Nat.mod (Nat.shiftRight n a) 0x10000) 0x2E2E = true)
    (h' : Numeral w (Nat.shiftRight n (a + 16)) (Nat.shiftRight (Nat.shiftRight n (a + 16)) a) v') (m c : Nat)
    (hm : 256 ^ (List.replicate j (0x20 : UInt8)).length = m) (hc : numOf (List.replicate j 0x20) = c) (hj : a + 16 + a + 8 * j = 112)
    (hs : Nat.beq (Nat.mod (Nat.shiftRight n (a + 16 + a)) m) c = true) : IsRange n v v' := by
  obtain ⟨ds, h1, h2, h3, h4⟩ := h
  obtain ⟨ds', h1', h2', h3', h4'⟩ := h'
  refine ⟨⟨ds ++ [0x2E, 0x2E] ++ ds', j, ?_, ?_, by omega, by omega, .inr ⟨ds, ds', rfl, h2, h2'⟩⟩, by omega, by omega⟩
  · rw [h1, shift_prefix [0x2E, 0x2E] n a _ _ (by decide) rfl rfl hd, show a + 8 * [(0x2E : UInt8), 0x2E].length = a + 16 from rfl, h1',
      shift_shift, shift_prefix _ n _ m c (by simp [List.mem_replicate]) hm hc hs, List.length_replicate, hj]
    simp
  · intro b hb
    rcases List.mem_append.mp hb with hb | hb
    · rcases List.mem_append.mp hb with hb | hb
      · exact h3 b hb
      · have : b = 0x2E := by simpa using hb
        subst this
        decide
    · exact h3' b hb

theorem rangeN_sound {α : Type} {n : Nat} {k : Nat → Nat → Option α} {r : α} (h : rangeN n k = some r) :
    ∃ lo hi, IsRange n lo hi ∧ k lo hi = some r := by
  unfold rangeN at h
  rcases beq_cond h with ⟨c, h⟩ | ⟨_, h⟩
  · obtain ⟨v, h1, h2⟩ := hex4_sound h
    exact ⟨v, v, isRange_one (j := 10) h1 (by decide) _ _ (by decide) (by decide) (by decide) c, h2⟩
  rcases beq_cond h with ⟨c, h⟩ | ⟨_, h⟩
  · obtain ⟨v, h1, h2⟩ := hex5_sound h
    exact ⟨v, v, isRange_one (j := 9) h1 (by decide) _ _ (by decide) (by decide) (by decide) c, h2⟩
  rcases beq_cond h with ⟨c, h⟩ | ⟨_, h⟩
  · obtain ⟨c', h⟩ := cond_some h
    obtain ⟨v, h1, h2⟩ := hex4_sound h
    obtain ⟨w, h3, h4⟩ := hex4_sound h2
    exact ⟨v, w, isRange_two (j := 4) h1 (by decide) c h3 _ _ (by decide) (by decide) (by decide) c', h4⟩
  obtain ⟨c, h⟩ := cond_some h
  obtain ⟨c', h⟩ := cond_some h
  obtain ⟨v, h1, h2⟩ := hex5_sound h
  obtain ⟨w, h3, h4⟩ := hex5_sound h2
  exact ⟨v, w, isRange_two (j := 2) h1 (by decide) c h3 _ _ (by decide) (by decide) (by decide) c', h4⟩

def padField (f : Nat × List UInt8 × Nat) : List UInt8 := List.replicate f.1 0x20 ++ f.2.1 ++ List.replicate f.2.2 0x20

/-- The fields of a kind of line. -/
def Kind.names (x : Kind) : List (List UInt8) := x.fields.map fun f => f.2.1

structure Kind.Ok (rel : List (List UInt8) → Bool) (fieldsOf : Nat → List (List UInt8)) (x : Kind) : Prop where
  ne : x.fields ≠ []
  plain : ∀ f ∈ x.fields, ∀ b ∈ f.2.1, Plain b
  text : x.text = numOf (semicolon :: joinFields (x.fields.map padField) ++ [hash])
  size : x.size = 256 ^ (semicolon :: joinFields (x.fields.map padField) ++ [hash]).length
  tag : (x.tag = 0 ∧ rel x.names = false) ∨ (x.tag ≠ 0 ∧ rel x.names = true ∧ x.names = fieldsOf x.tag)

theorem padField_text {fs : List (Nat × List UInt8 × Nat)} (hne : fs ≠ []) (h : ∀ f ∈ fs, ∀ b ∈ f.2.1, Plain b) :
    FieldsText (joinFields (fs.map padField)) (fs.map fun f => f.2.1) := by
  have semi : ∀ f ∈ fs, semicolon ∉ padField f := by
    intro f hf hm
    unfold padField at hm
    simp only [List.mem_append, List.mem_replicate] at hm
    rcases hm with (hm | hm) | hm
    · exact absurd hm.2 (by decide)
    · exact (h f hf _ hm).2.2.2 rfl
    · exact absurd hm.2 (by decide)
  induction fs with
  | nil => exact absurd rfl hne
  | cons f fs ih =>
    have hp := padded_blanks (h f List.mem_cons_self) f.1 f.2.2
    cases fs with
    | nil => exact .last _ _ (semi f List.mem_cons_self) hp
    | cons f' fs =>
      rw [List.map_cons, List.map_cons, joinFields]
      exact .cons _ _ _ _ (semi f List.mem_cons_self) hp
        (ih (by simp) (fun g hg => h g (List.mem_cons_of_mem _ hg)) (fun g hg => semi g (List.mem_cons_of_mem _ hg)))

theorem kindN_sound {α : Type} {n : Nat} {k : Nat → Option α} {r : α} : ∀ {xs : List Kind}, kindN n k xs = some r →
    ∃ x ∈ xs, n % x.size = x.text ∧ k x.tag = some r
  | [], h => by cases h
  | ⟨text, size, tag, fields⟩ :: xs, h => by
    rw [kindN] at h
    rcases beq_cond h with ⟨c, h⟩ | ⟨_, h⟩
    · exact ⟨_, List.mem_cons_self, Nat.eq_of_beq_eq_true c, h⟩
    · obtain ⟨x, hx, h⟩ := kindN_sound h
      exact ⟨x, List.mem_cons_of_mem _ hx, h⟩

variable {rel : List (List UInt8) → Bool} {fieldsOf : Nat → List (List UInt8)}

theorem entry_line {n lo hi : Nat} {x : Kind} (hr : IsRange n lo hi) (hk : x.Ok rel fieldsOf)
    (h : Nat.shiftRight n 112 % x.size = x.text) : IsEntryLine (textLine n) lo hi x.names := by
  obtain ⟨⟨rng, j, e, hp, hrng⟩, _, _⟩ := hr
  have hb : ∀ b ∈ joinFields (x.fields.map padField), Plain b ∨ b = semicolon ∨ b = 0x20 := by
    intro b hb
    rcases joinFields_mem hb with hb | ⟨f, hf, hb⟩
    · exact .inr (.inl hb)
    · obtain ⟨g, hg, rfl⟩ := List.mem_map.mp hf
      unfold padField at hb
      simp only [List.mem_append, List.mem_replicate] at hb
      rcases hb with (hb | hb) | hb
      · exact .inr (.inr hb.2)
      · exact .inl (hk.plain g hg b hb)
      · exact .inr (.inr hb.2)
  have e2 := textLine_prefix (semicolon :: joinFields (x.fields.map padField) ++ [hash]) (Nat.shiftRight n 112) (by
    intro hm
    rcases List.mem_append.mp hm with hm | hm
    · rcases List.mem_cons.mp hm with hm | hm
      · exact absurd hm (by decide)
      · rcases hb _ hm with hm | hm | hm
        · exact absurd hm (by decide)
        · exact absurd hm (by decide)
        · exact absurd hm (by decide)
    · exact absurd (List.mem_singleton.mp hm) (by decide)) (by rw [← hk.size, ← hk.text]; exact h)
  have hpre : ∀ b ∈ rng ++ List.replicate j 0x20, b ≠ hash ∧ b ≠ semicolon := by
    intro b hb
    rcases List.mem_append.mp hb with hb | hb
    · exact ⟨(hp b hb).2.2.1, (hp b hb).2.2.2⟩
    · rw [(List.mem_replicate.mp hb).2]
      decide
  refine ⟨rng ++ List.replicate j 0x20, rng, joinFields (x.fields.map padField), ⟨?_, .inr ⟨textLine (Nat.shiftRight n 112 /
      256 ^ (semicolon :: joinFields (x.fields.map padField) ++ [hash]).length), ?_⟩⟩, ?_, ?_, hrng,
    padField_text hk.ne hk.plain⟩
  · intro hm
    rcases List.mem_append.mp hm with hm | hm
    · exact (hpre _ hm).1 rfl
    · rcases List.mem_cons.mp hm with hm | hm
      · exact absurd hm (by decide)
      · rcases hb _ hm with hm | hm | hm
        · exact hm.2.2.1 rfl
        · exact absurd hm (by decide)
        · exact absurd hm (by decide)
  · rw [e, e2]
    simp only [List.append_assoc, List.cons_append, List.nil_append]
  · exact fun hm => (hpre _ hm).2 rfl
  · exact padded_blanks hp 0 j

/-- What the checker finds out about lines. -/
structure Read {γ : Type} (rel : List (List UInt8) → Bool) (fieldsOf : γ → List (List UInt8)) (ns : List Nat)
    (exp : List (Nat × Nat × γ)) (es : List FileEntry) : Prop where
  mean : LinesMean (ns.map textLine) es .complete
  filter : es.filter (fun x => rel x.2.2) = exp.map fun r => (r.1, r.2.1, fieldsOf r.2.2)
  small : ∀ x ∈ es, SmallEntry x
  lines : ∀ n ∈ ns, newline ∉ textLine n ∧ carriageReturn ∉ textLine n ∧ (textLine n).length ≤ 256

theorem linesN_sound {γ : Type} {tag : γ → Nat} {kinds : List Kind} (hk : ∀ x ∈ kinds, x.Ok rel fieldsOf) :
    ∀ {ns : List Nat} {exp rest : List (Nat × Nat × γ)}, linesN tag kinds ns exp = some rest →
      ∃ exp' es, exp = exp' ++ rest ∧ Read rel (fun g => fieldsOf (tag g)) ns exp' es
  | [], exp, rest, h => by
    simp only [linesN, Option.some.injEq] at h
    exact ⟨[], [], by simp [h], ⟨.done, rfl, by simp, by simp⟩⟩
  | n :: ns, exp, rest, h => by
    rw [linesN] at h
    obtain ⟨hc, h⟩ := cond_some h
    have hl := lineN_sound (k := 256) (fun j hj => ones_bit ⟨j, hj⟩) hc
    have skip : IsIgnoredLine (textLine n) → linesN tag kinds ns exp = some rest →
        ∃ exp' es, exp = exp' ++ rest ∧ Read rel (fun g => fieldsOf (tag g)) (n :: ns) exp' es := by
      intro hi h
      obtain ⟨exp', es, e, hr⟩ := linesN_sound hk h
      refine ⟨exp', es, e, ⟨.skip _ _ _ _ hi hr.mean, hr.filter, hr.small, ?_⟩⟩
      intro m hm
      rcases List.mem_cons.mp hm with rfl | hm
      · exact hl
      · exact hr.lines m hm
    rcases beq_cond h with ⟨c, h⟩ | ⟨_, h⟩
    · obtain rfl : n = 0 := Nat.eq_of_beq_eq_true c
      exact skip ⟨[], ⟨by simp, .inl rfl⟩, by simp⟩ h
    rcases beq_cond h with ⟨c, h⟩ | ⟨_, h⟩
    · have c : n % 256 = 35 := Nat.eq_of_beq_eq_true c
      refine skip ⟨[], ⟨by simp, .inr ⟨textLine (n / 256), ?_⟩⟩, by simp⟩ h
      rw [textLine_cons n (by omega), c]
      rfl
    obtain ⟨lo, hi, hr, h⟩ := rangeN_sound h
    obtain ⟨x, hx, ht, h⟩ := kindN_sound h
    have he := entry_line hr (hk x hx) ht
    have hlo := hr.lo
    have hhi := hr.hi
    have hsm : SmallEntry (lo, hi, x.names) := ⟨by simp only; omega, by simp only; omega⟩
    have lines : ∀ {ms : List Nat}, (∀ m ∈ ms, newline ∉ textLine m ∧ carriageReturn ∉ textLine m ∧ (textLine m).length ≤ 256) →
        ∀ m ∈ n :: ms, newline ∉ textLine m ∧ carriageReturn ∉ textLine m ∧ (textLine m).length ≤ 256 := by
      intro ms h m hm
      rcases List.mem_cons.mp hm with rfl | hm
      · exact hl
      · exact h m hm
    have small : ∀ {es : List FileEntry}, (∀ x ∈ es, SmallEntry x) → ∀ y ∈ (lo, hi, x.names) :: es, SmallEntry y := by
      intro es h y hy
      rcases List.mem_cons.mp hy with rfl | hy
      · exact hsm
      · exact h y hy
    rcases beq_cond h with ⟨c, h⟩ | ⟨c, h⟩
    · have c := Nat.eq_of_beq_eq_true c
      obtain ⟨exp', es, e, hr⟩ := linesN_sound hk h
      refine ⟨exp', _ :: es, e, ⟨.entry _ _ _ _ _ _ _ he hr.mean, ?_, small hr.small, lines hr.lines⟩⟩
      rw [List.filter_cons, if_neg, hr.filter]
      rcases (hk x hx).tag with ⟨_, h⟩ | ⟨h, _⟩
      · simp [h]
      · exact absurd c h
    · match exp, h with
      | [], h => cases h
      | (lo', hi', g) :: exp, h =>
        simp only at h
        obtain ⟨c1, h⟩ := cond_some h
        obtain ⟨c2, h⟩ := cond_some h
        obtain ⟨c3, h⟩ := cond_some h
        obtain ⟨exp', es, e, hr⟩ := linesN_sound hk h
        have c1 := Nat.eq_of_beq_eq_true c1
        have c2 := Nat.eq_of_beq_eq_true c2
        have c3 := Nat.eq_of_beq_eq_true c3
        refine ⟨(lo', hi', g) :: exp', _ :: es, by rw [e]; rfl, ⟨.entry _ _ _ _ _ _ _ he hr.mean, ?_, small hr.small, lines hr.lines⟩⟩
        rcases (hk x hx).tag with ⟨h, _⟩ | ⟨_, h1, h2⟩
        · rw [h] at c; cases c
        · rw [List.filter_cons, if_pos h1, List.map_cons, hr.filter]
          simp only [← c3, h2, c1, c2]

theorem linesMean_append {l1 l2 : List (List UInt8)} {es1 es2 : List FileEntry} {fe : FileEnd} (h1 : LinesMean l1 es1 .complete)
    (h2 : LinesMean l2 es2 fe) : LinesMean (l1 ++ l2) (es1 ++ es2) fe := by
  generalize hfe : FileEnd.complete = c at h1
  induction h1 with
  | done => exact h2
  | skip l ls es e h _ ih => exact .skip _ _ _ _ h (ih hfe)
  | entry l ls es e lo hi fs h _ ih => exact .entry _ _ _ _ _ _ _ h (ih hfe)
  | malformed l ls h => cases hfe

theorem partsN_sound {γ : Type} {tag : γ → Nat} {kinds : List Kind} (hk : ∀ x ∈ kinds, x.Ok rel fieldsOf) :
    ∀ {ps : List (List Nat)} {exp rest : List (Nat × Nat × γ)}, partsN tag kinds ps exp = some rest →
      ∃ exp' es, exp = exp' ++ rest ∧ Read rel (fun g => fieldsOf (tag g)) ps.flatten exp' es
  | [], exp, rest, h => by
    simp only [partsN, Option.some.injEq] at h
    exact ⟨[], [], by simp [h], ⟨.done, rfl, by simp, by simp⟩⟩
  | p :: ps, exp, rest, h => by
    rw [partsN] at h
    split at h
    · cases h
    · rename_i r hr
      obtain ⟨x1, es1, e1, r1⟩ := linesN_sound hk hr
      obtain ⟨x2, es2, e2, r2⟩ := partsN_sound hk h
      refine ⟨x1 ++ x2, es1 ++ es2, by rw [e1, e2, List.append_assoc], ⟨?_, ?_, ?_, ?_⟩⟩
      · rw [List.flatten_cons, List.map_append]
        exact linesMean_append r1.mean r2.mean
      · rw [List.filter_append, r1.filter, r2.filter, List.map_append]
      · intro x hx
        rcases List.mem_append.mp hx with hx | hx
        · exact r1.small x hx
        · exact r2.small x hx
      · intro n hn
        rw [List.flatten_cons] at hn
        rcases List.mem_append.mp hn with hn | hn
        · exact r1.lines n hn
        · exact r2.lines n hn

theorem allRead_sound {γ : Type} {tag : γ → Nat} {kinds : List Kind} (hk : ∀ x ∈ kinds, x.Ok rel fieldsOf)
    {ps : List (List Nat)} {exp : List (Nat × Nat × γ)} (h : allRead (partsN tag kinds ps exp) = true) :
    ∃ es, Read rel (fun g => fieldsOf (tag g)) ps.flatten exp es := by
  unfold allRead at h
  split at h
  · rename_i hp
    obtain ⟨x, es, e, hr⟩ := partsN_sound hk hp
    rw [List.append_nil] at e
    subst e
    exact ⟨es, hr⟩
  · cases h

theorem textFile_fileOf : ∀ {ns : List Nat}, (∀ n ∈ ns, newline ∉ textLine n ∧ carriageReturn ∉ textLine n) →
    FileOf (ns.map textLine) (textFile ns)
  | [], _ => .nil
  | n :: ns, h => by
    rw [textFile_cons, List.map_cons]
    obtain ⟨h1, h2⟩ := h n List.mem_cons_self
    exact .lf _ _ _ h1 (fun hm => h2 (List.mem_of_getLast? hm)) (textFile_fileOf fun m hm => h m (List.mem_cons_of_mem _ hm))

theorem textFile_shortLines {ns : List Nat} (h : ∀ n ∈ ns, newline ∉ textLine n ∧ carriageReturn ∉ textLine n ∧ (textLine n).length ≤ 256) :
    ShortLines (textFile ns) :=
  shortLines_of_lines (textFile_fileOf fun n hn => ⟨(h n hn).1, (h n hn).2.1⟩) (by
    intro l hl
    obtain ⟨n, hn, rfl⟩ := List.mem_map.mp hl
    have := (h n hn).2.2
    omega)

end Textseg.Gen
