import Verif.Model.Report
import Verif.Spec.Report
import Verif.Proofs.Runes
import Verif.Proofs.GenPrint
import Verif.Proofs.TableTestFiles
import Verif.Proofs.ConformanceTest
/-!
# What a failing conformance subtest prints
-/

namespace Textseg
open Spec

/-! ## Hexadecimal -/

theorem isHex_zero {ds : List UInt8} {v : Nat} (h : IsHex ds v) : IsHex (0x30 :: ds) v := by
  induction h with
  | digit d u =>
    have := IsHex.snoc _ _ d u (IsHex.digit 0 false)
    simpa [hexDigitByte] using this
  | snoc ds v d u h ih => exact IsHex.snoc _ _ d u ih

theorem isHex_zeros {ds : List UInt8} {v : Nat} (h : IsHex ds v) (k : Nat) : IsHex (List.replicate k 0x30 ++ ds) v := by
  induction k with
  | zero => exact h
  | succ k ih => exact isHex_zero ih

theorem digitChar_hex : ∀ d : Fin 16, UInt8.ofNat (Nat.digitChar d.val).toNat = hexDigitByte d false := by decide

theorem hexDigit_lower : ∀ d : Fin 16, hexDigitByte d false ∈ str "0123456789abcdef" := by decide +kernel

theorem hexDigit_zero : ∀ d : Fin 16, d.val ≠ 0 → hexDigitByte d false ≠ 0x30 := by decide +kernel

theorem toDigitsCore_hex : ∀ (fuel n : Nat) (acc : List Char), n < fuel →
    ∃ ds, (Nat.toDigitsCore 16 fuel n acc).map (fun c => UInt8.ofNat c.toNat) = ds ++ acc.map (fun c => UInt8.ofNat c.toNat) ∧ IsHex ds n ∧
      (n = 0 ∧ ds.length = 1 ∨ ds ≠ [] ∧ ds.head? ≠ some 0x30) ∧ ∀ d ∈ ds, d ∈ str "0123456789abcdef"
  | 0, _, _, h => by omega
  | fuel + 1, n, acc, h => by
    rw [Nat.toDigitsCore]
    have hd := digitChar_hex ⟨n % 16, by omega⟩
    have hz := hexDigit_zero ⟨n % 16, by omega⟩
    have hl := hexDigit_lower ⟨n % 16, by omega⟩
    simp only at hd hz
    split
    · next h0 =>
      refine ⟨[hexDigitByte ⟨n % 16, by omega⟩ false], by simp [hd], ?_, ?_, ?_⟩
      · have := IsHex.digit ⟨n % 16, by omega⟩ false
        rwa [show (⟨n % 16, by omega⟩ : Fin 16).val = n by simp only; omega] at this
      · by_cases hn : n = 0
        · exact .inl ⟨hn, rfl⟩
        · refine .inr ⟨by simp, ?_⟩
          simpa using hz (by omega)
      · intro d h
        rw [List.mem_singleton] at h
        rw [h]
        exact hl
    · next h0 =>
      obtain ⟨ds, h1, h2, h3, h4⟩ := toDigitsCore_hex fuel (n / 16) (Nat.digitChar (n % 16) :: acc) (by omega)
      refine ⟨ds ++ [hexDigitByte ⟨n % 16, by omega⟩ false], by rw [h1]; simp [hd], ?_, ?_, ?_⟩
      · have := IsHex.snoc _ _ ⟨n % 16, by omega⟩ false h2
        rwa [show n / 16 * 16 + (⟨n % 16, by omega⟩ : Fin 16).val = n by simp only; omega] at this
      · rcases h3 with ⟨h3, -⟩ | ⟨h3, h5⟩
        · exact absurd h3 h0
        · refine .inr ⟨by simp, ?_⟩
          cases ds with
          | nil => exact absurd rfl h3
          | cons => exact h5
      · intro d h
        rcases List.mem_append.mp h with h | h
        · exact h4 d h
        · rw [List.mem_singleton] at h
          rw [h]
          exact hl

theorem sprintf04x_hex (n : Nat) : IsHex (Gen.sprintf04x n) n ∧ 4 ≤ (Gen.sprintf04x n).length ∧
    ((Gen.sprintf04x n).length = 4 ∨ (Gen.sprintf04x n).head? ≠ some 0x30) ∧
    ∀ d ∈ Gen.sprintf04x n, d ∈ str "0123456789abcdef" := by
  obtain ⟨ds, h1, h2, h3, h4⟩ := toDigitsCore_hex (n + 1) n [] (by omega)
  rw [List.map_nil, List.append_nil] at h1
  have e : Gen.sprintf04x n = List.replicate (4 - ds.length) 0x30 ++ ds := by
    unfold Gen.sprintf04x Nat.toDigits
    simp only [h1]
  rw [e]
  refine ⟨isHex_zeros h2 _, by simp; omega, ?_, ?_⟩
  · by_cases hl : ds.length ≤ 4
    · exact .inl (by simp; omega)
    · rw [show 4 - ds.length = 0 by omega]
      rcases h3 with ⟨-, h3⟩ | ⟨-, h3⟩
      · omega
      · exact .inr h3
  · intro d h
    rcases List.mem_append.mp h with h | h
    · rw [(List.mem_replicate.mp h).2]
      decide +kernel
    · exact h4 d h

theorem codePointText (c : Char) : IsCodePointText (str "0x" ++ Gen.sprintf04x c.val.toNat) c :=
  ⟨_, rfl, sprintf04x_hex _⟩

/-! ## The loop -/

theorem propsText_eq {p : CharProps} (h : p.Consistent) : charPropertiesString (pack p) = str p.text := by
  obtain ⟨g, e, i⟩ := p
  have h1 := h.pict
  cases e
  · clear h1 h
    cases g <;> cases i <;> decide +kernel
  · obtain ⟨h1, h2⟩ := h1 rfl
    simp only at h1 h2
    subst h1 h2
    decide +kernel

theorem lookup_some (p : List UInt8) : ∃ r, LookupFirstChar p = .ok r := by
  by_cases hp : p = []
  · subst hp; exact ⟨_, rfl⟩
  · rcases lookup_cases p hp with ⟨_, _, _, _, h⟩ | ⟨_, _, h⟩ | ⟨_, h⟩
    · exact ⟨_, h⟩
    · exact ⟨_, h⟩
    · exact ⟨_, by simpa using h []⟩

/-- The loop on any bytes: one item for each character that Go sees. -/
theorem diagnoseLoop_any {data : List UInt8} {rs : List (Char × List UInt8)} (h : GoChars data rs) :
    ∀ fuel, data.length < fuel → ∃ cats, diagnoseLoop fuel data =
      .ok (rs.map fun x => str "0x" ++ Gen.sprintf04x x.1.val.toNat, rs.map Prod.snd, cats) ∧ cats.length = rs.length := by
  induction h with
  | nil => intro fuel hf; match fuel, hf with | fuel + 1, _ => exact ⟨[], rfl, rfl⟩
  | char c rest rs h ih =>
    intro fuel hf
    match fuel, hf with
    | fuel + 1, hf =>
      have hp := List.length_pos_iff.mpr (utf8_one_ne c)
      rw [List.length_append] at hf
      obtain ⟨r, hr⟩ := lookup_some (utf8 [c] ++ rest)
      obtain ⟨cats, h1, h2⟩ := ih fuel (by omega)
      refine ⟨charPropertiesString r.1 :: cats, ?_, by simp [h2]⟩
      rw [diagnoseLoop, if_neg (by rw [List.length_append]; omega)]
      simp only [decodeRune_char, goSliceFrom, goSliceTo, List.length_append, hr]
      rw [if_pos (by omega), if_pos (by omega)]
      simp only [List.drop_left, List.take_left, bind, Except.bind, h1]
      rfl
  | bad b rest rs h0 h ih =>
    intro fuel hf
    match fuel, hf with
    | fuel + 1, hf =>
      rw [List.length_cons] at hf
      obtain ⟨r, hr⟩ := lookup_some (b :: rest)
      obtain ⟨cats, h1, h2⟩ := ih fuel (by omega)
      refine ⟨charPropertiesString r.1 :: cats, ?_, by simp [h2]⟩
      rw [diagnoseLoop, if_neg (by rw [List.length_cons]; omega)]
      simp only [decodeRune_bad b rest h0, goSliceFrom, goSliceTo, List.length_cons, hr]
      rw [if_pos (by omega), if_pos (by omega)]
      simp only [List.drop_succ_cons, List.drop_zero, List.take_succ_cons, List.take_zero, bind, Except.bind, h1]
      rfl

/-- The loop on a text. -/
theorem diagnoseLoop_utf8 (cs : List Char) : ∀ fuel, (utf8 cs).length < fuel → diagnoseLoop fuel (utf8 cs) =
      .ok (cs.map fun c => str "0x" ++ Gen.sprintf04x c.val.toNat, cs.map fun c => utf8 [c],
        cs.map fun c => str (ucd c.val.toNat).text) := by
  induction cs with
  | nil => intro fuel hf; match fuel, hf with | fuel + 1, _ => rfl
  | cons c cs ih =>
    intro fuel hf
    match fuel, hf with
    | fuel + 1, hf =>
      have hp := List.length_pos_iff.mpr (utf8_one_ne c)
      rw [show utf8 (c :: cs) = utf8 [c] ++ utf8 cs by simp [utf8]] at hf ⊢
      rw [List.length_append] at hf
      have hl : LookupFirstChar (utf8 [c] ++ utf8 cs) = .ok (pack (ucd c.val.toNat), (utf8 [c]).length) := by
        rw [utf8_one, lookup_seq (isSeq_encode c), seqProps_encode]
      rw [diagnoseLoop, if_neg (by rw [List.length_append]; omega)]
      simp only [decodeRune_char, goSliceFrom, goSliceTo, List.length_append, hl]
      rw [if_pos (by omega), if_pos (by omega)]
      simp only [List.drop_left, List.take_left, bind, Except.bind, ih fuel (by omega), propsText_eq (ucd_consistent _)]
      rfl

/-! ## The ranges of bytes can be read back -/

theorem stringsJoin_eq (sep : GoString) (l : List GoString) : stringsJoin sep l = sep.intercalate l := by
  induction l with
  | nil => rfl
  | cons s l ih =>
    cases l with
    | nil => simp [stringsJoin]
    | cons t l => rw [stringsJoin, ih]; simp [List.intercalate]

theorem hex_injective {a b : UInt8} (h : sprintf0x02x a = sprintf0x02x b) : a = b := by
  obtain ⟨h1, l1, e1, _, _, v1⟩ := Gen.hex_item a
  obtain ⟨h2, l2, e2, _, _, v2⟩ := Gen.hex_item b
  rw [e1, e2] at h
  rw [h, v2] at v1
  exact UInt8.toNat_inj.mp (Option.some.inj v1).symm

theorem hex_length (a : UInt8) : (sprintf0x02x a).length = 4 := rfl

/-- What follows the first byte. -/
def afterByte (bs : List UInt8) (rs : List (List UInt8)) : GoString :=
  match bs, rs with
  | [], [] => []
  | [], r :: rs => str " | " ++ formatByteRanges (r :: rs)
  | b :: bs, rs => str "   " ++ formatByteRanges ((b :: bs) :: rs)

theorem formatByteRanges_cons (b : UInt8) (bs : List UInt8) (rs : List (List UInt8)) :
    formatByteRanges ((b :: bs) :: rs) = sprintf0x02x b ++ afterByte bs rs := by
  cases bs with
  | nil =>
    cases rs with
    | nil => simp [formatByteRanges, formatBytes, stringsJoin, afterByte]
    | cons r rs => simp [formatByteRanges, formatBytes, stringsJoin, afterByte]
  | cons b' bs =>
    cases rs with
    | nil => simp [formatByteRanges, formatBytes, stringsJoin, afterByte]
    | cons r rs => simp [formatByteRanges, formatBytes, stringsJoin, afterByte]

theorem str_bar : str " | " = [0x20, 0x7C, 0x20] := by decide +kernel
theorem str_gap : str "   " = [0x20, 0x20, 0x20] := by decide +kernel

theorem formatByteRanges_injective : ∀ (n : Nat) (l l' : List (List UInt8)), l.flatten.length ≤ n → (∀ t ∈ l, t ≠ []) → (∀ t ∈ l', t ≠ []) →
    formatByteRanges l = formatByteRanges l' → l = l' := by
  intro n
  induction n with
  | zero =>
    intro l l' hn h1 h2 he
    match l, h1 with
    | [], _ =>
      match l', h2 with
      | [], _ => rfl
      | [] :: _, h2 => exact absurd rfl (h2 [] (by simp))
      | (b :: bs) :: rs, _ =>
        rw [formatByteRanges_cons] at he
        cases he
    | [] :: _, h1 => exact absurd rfl (h1 [] (by simp))
    | (b :: bs) :: rs, _ => simp at hn
  | succ n ih =>
    intro l l' hn h1 h2 he
    match l, h1, l', h2 with
    | [], _, [], _ => rfl
    | [] :: _, h1, _, _ => exact absurd rfl (h1 [] (by simp))
    | _, _, [] :: _, h2 => exact absurd rfl (h2 [] (by simp))
    | [], _, (b :: bs) :: rs, _ => rw [formatByteRanges_cons] at he; cases he
    | (b :: bs) :: rs, _, [], _ => rw [formatByteRanges_cons] at he; cases he
    | (b :: bs) :: rs, h1, (b' :: bs') :: rs', h2 =>
      rw [formatByteRanges_cons, formatByteRanges_cons] at he
      obtain ⟨hb, ht⟩ := List.append_inj he (by rw [hex_length, hex_length])
      obtain rfl := hex_injective hb
      have hr1 : ∀ t ∈ rs, t ≠ [] := fun t ht => h1 t (List.mem_cons_of_mem _ ht)
      have hr2 : ∀ t ∈ rs', t ≠ [] := fun t ht => h2 t (List.mem_cons_of_mem _ ht)
      simp only [List.flatten_cons, List.length_append, List.length_cons] at hn
      match bs, rs, bs', rs', ht, hr1, hr2, hn with
      | [], [], [], [], _, _, _, _ => rfl
      | [], [], [], r :: rs', ht, _, _, _ => simp [afterByte, str_bar] at ht
      | [], [], c :: bs', rs', ht, _, _, _ => simp [afterByte, str_gap] at ht
      | [], r :: rs, [], [], ht, _, _, _ => simp [afterByte, str_bar] at ht
      | [], r :: rs, [], r' :: rs', ht, hr1, hr2, hn =>
        rw [ih (r :: rs) (r' :: rs') (by simp at hn ⊢; omega) hr1 hr2 (List.append_cancel_left ht)]
      | [], r :: rs, c :: bs', rs', ht, _, _, _ => simp [afterByte, str_bar, str_gap] at ht
      | c :: bs, rs, [], [], ht, _, _, _ => simp [afterByte, str_gap] at ht
      | c :: bs, rs, [], r' :: rs', ht, _, _, _ => simp [afterByte, str_bar, str_gap] at ht
      | c :: bs, rs, c' :: bs', rs', ht, hr1, hr2, hn =>
        have := ih ((c :: bs) :: rs) ((c' :: bs') :: rs') (by simp at hn ⊢; omega)
          (List.forall_mem_cons.mpr ⟨by simp, hr1⟩)
          (List.forall_mem_cons.mpr ⟨by simp, hr2⟩) (List.append_cancel_left ht)
        simp only [List.cons.injEq] at this
        simp [this]

end Textseg
