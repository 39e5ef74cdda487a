import Verif.Model.GenPrint
import Verif.Spec.GoSource
/-!
# Reading back the printed tables
-/

namespace Textseg.Spec

theorem dropWhile_length_le {α : Type} (p : α → Bool) : ∀ l : List α, (l.dropWhile p).length ≤ l.length
  | [] => by simp
  | a :: l => by
    rw [List.dropWhile_cons]
    split
    · exact Nat.le_succ_of_le (dropWhile_length_le p l)
    · exact Nat.le_refl _

/-- The fuel does not matter. -/
theorem goLex_fuel : ∀ (f g : Nat) (o : Bool) (src : List UInt8), src.length < f → src.length < g → goLex f o src = goLex g o src := by
  intro f
  induction f with
  | zero => intro g o src h; omega
  | succ f ih =>
    intro g o src hf hg
    obtain ⟨g, rfl⟩ : ∃ g', g = g' + 1 := ⟨g - 1, by omega⟩
    cases src with
    | nil => rfl
    | cons b rest =>
      simp only [List.length_cons] at hf hg
      have h1 := fun p => dropWhile_length_le (α := UInt8) p rest
      have key : ∀ o l, l.length ≤ rest.length → goLex f o l = goLex g o l := fun o l hl => ih g o l (by omega) (by omega)
      rw [goLex, goLex]
      simp only [fun o => key o rest (Nat.le_refl _), fun o p => key o _ (h1 p), fun o => key o (rest.drop 2) (by simp)]

/-- The tokens of the rest of a text. -/
def lexFrom (o : Bool) (src : List UInt8) : Option (List Tok) := goLex (src.length + 1) o src

theorem goTokens_eq (src : List UInt8) : goTokens src = lexFrom false src := rfl

theorem lexFrom_nil (o : Bool) : lexFrom o [] = some (if o then [.semicolon] else []) := rfl

theorem lexFrom_cons (o : Bool) (b : UInt8) (rest : List UInt8) : lexFrom o (b :: rest) =
    if b = 0x0A then (lexFrom false rest).map fun ts => if o then .semicolon :: ts else ts
    else if b = 0x20 ∨ b = 0x09 ∨ b = 0x0D then lexFrom o rest
    else if b = 0x2F ∧ rest.head? = some 0x2F then lexFrom o (rest.dropWhile (· != 0x0A))
    else if isLetter b then
      let w := b :: rest.takeWhile isWordByte
      (lexFrom (!plainKeywords.contains w) (rest.dropWhile isWordByte)).map (.word w :: ·)
    else if isDecimal b then
      (numberValue (b :: rest.takeWhile isWordByte)).bind fun n =>
        (lexFrom true (rest.dropWhile isWordByte)).map (.number n :: ·)
    else if b = 0x2E ∧ rest.take 2 = [0x2E, 0x2E] then
      (lexFrom false (rest.drop 2)).map (.symbol [0x2E, 0x2E, 0x2E] :: ·)
    else if b = 0x3D ∧ rest.head? ≠ some 0x3D then (lexFrom false rest).map (.symbol [b] :: ·)
    else if b = 0x5B ∨ b = 0x7B ∨ b = 0x2C then (lexFrom false rest).map (.symbol [b] :: ·)
    else if b = 0x5D ∨ b = 0x7D then (lexFrom true rest).map (.symbol [b] :: ·)
    else if b = 0x3B then (lexFrom false rest).map (.semicolon :: ·)
    else none := by
  have key : ∀ o l, l.length ≤ rest.length → lexFrom o l = goLex (b :: rest).length o l :=
    fun o l hl => goLex_fuel _ _ o l (Nat.lt_succ_self _) (by simp; omega)
  have h1 := fun p => dropWhile_length_le (α := UInt8) p rest
  simp only [fun o => key o rest (Nat.le_refl _), fun o p => key o _ (h1 p), fun o => key o (rest.drop 2) (by simp)]
  rfl

theorem lexFrom_newline (rest : List UInt8) : lexFrom false (0x0A :: rest) = lexFrom false rest := by
  rw [lexFrom_cons]; simp

theorem lexFrom_newline_operand (rest : List UInt8) :
    lexFrom true (0x0A :: rest) = (lexFrom false rest).map (.semicolon :: ·) := by
  rw [lexFrom_cons]; simp

theorem lexFrom_blank (o : Bool) (b : UInt8) (hb : b = 0x20 ∨ b = 0x09) (rest : List UInt8) : lexFrom o (b :: rest) = lexFrom o rest := by
  rw [lexFrom_cons, if_neg (by rcases hb with rfl | rfl <;> decide), if_pos (by rcases hb with h | h <;> simp [h])]

theorem dropWhile_stop {α : Type} (p : α → Bool) (l : List α) (h : ∀ x ∈ l, p x = true) (y : α) (hy : p y = false) (r : List α) :
    (l ++ y :: r).dropWhile p = y :: r := by
  induction l with
  | nil => simp [hy]
  | cons a l ih =>
    rw [List.cons_append, List.dropWhile_cons, if_pos (h a (by simp))]
    exact ih fun x hx => h x (by simp [hx])

theorem takeWhile_stop {α : Type} (p : α → Bool) (l : List α) (h : ∀ x ∈ l, p x = true) (y : α) (hy : p y = false) (r : List α) :
    (l ++ y :: r).takeWhile p = l := by
  induction l with
  | nil => simp [hy]
  | cons a l ih =>
    rw [List.cons_append, List.takeWhile_cons, if_pos (h a (by simp)), ih fun x hx => h x (by simp [hx])]

/-- A line comment at the beginning of a line. -/
theorem lexFrom_comment (o : Bool) (text : List UInt8) (ht : (0x0A : UInt8) ∉ text) (rest : List UInt8) :
    lexFrom o (0x2F :: 0x2F :: text ++ 0x0A :: rest) = lexFrom o (0x0A :: rest) := by
  rw [List.cons_append, List.cons_append, lexFrom_cons, if_neg (by decide), if_neg (by decide), if_pos (by simp),
    ← List.cons_append, dropWhile_stop]
  · intro x hx
    rw [List.mem_cons] at hx
    rcases hx with rfl | hx
    · decide
    · rw [bne_iff_ne]; rintro rfl; exact ht hx
  · decide

/-- A word that is followed by something else. -/
theorem lexFrom_word (o : Bool) (w : List UInt8) (hw : ∀ x ∈ w, isWordByte x = true) (b : UInt8) (hb : isLetter b = true)
    (y : UInt8) (hy : isWordByte y = false) (rest : List UInt8) :
    lexFrom o (b :: w ++ y :: rest) = (lexFrom (!plainKeywords.contains (b :: w)) (y :: rest)).map (.word (b :: w) :: ·) := by
  have h1 : b ≠ 0x0A := by rintro rfl; revert hb; decide
  have h2 : ¬ (b = 0x20 ∨ b = 0x09 ∨ b = 0x0D) := by rintro (rfl | rfl | rfl) <;> revert hb <;> decide
  have h3 : ¬ (b = 0x2F ∧ (w ++ y :: rest).head? = some 0x2F) := by rintro ⟨rfl, _⟩; revert hb; decide
  rw [List.cons_append, lexFrom_cons, if_neg h1, if_neg h2, if_neg h3, if_pos hb]
  simp only [takeWhile_stop _ w hw y hy, dropWhile_stop _ w hw y hy]

/-- A number that is followed by something else. -/
theorem lexFrom_number (o : Bool) (w : List UInt8) (hw : ∀ x ∈ w, isWordByte x = true) (b : UInt8) (hb : isDecimal b = true) (n : Nat)
    (hn : numberValue (b :: w) = some n) (y : UInt8) (hy : isWordByte y = false) (rest : List UInt8) :
    lexFrom o (b :: w ++ y :: rest) = (lexFrom true (y :: rest)).map (.number n :: ·) := by
  have h1 : b ≠ 0x0A := by rintro rfl; revert hb; decide
  have h2 : ¬ (b = 0x20 ∨ b = 0x09 ∨ b = 0x0D) := by rintro (rfl | rfl | rfl) <;> revert hb <;> decide
  have h3 : ¬ (b = 0x2F ∧ (w ++ y :: rest).head? = some 0x2F) := by rintro ⟨rfl, _⟩; revert hb; decide
  have h4 : ¬ isLetter b = true := by
    simp only [isDecimal, isLetter, Bool.and_eq_true, Bool.or_eq_true, decide_eq_true_eq, beq_iff_eq, UInt8.le_iff_toNat_le, ← UInt8.toNat_inj] at hb ⊢
    have e6 : (0x5F : UInt8).toNat = 95 := rfl
    have e1 : (0x30 : UInt8).toNat = 48 := rfl
    have e2 : (0x39 : UInt8).toNat = 57 := rfl
    have e3 : (0x41 : UInt8).toNat = 65 := rfl
    have e4 : (0x5A : UInt8).toNat = 90 := rfl
    have e5 : (0x61 : UInt8).toNat = 97 := rfl
    omega
  rw [List.cons_append, lexFrom_cons, if_neg h1, if_neg h2, if_neg h3, if_neg h4, if_pos hb]
  simp only [takeWhile_stop _ w hw y hy, dropWhile_stop _ w hw y hy, hn, Option.bind_some]

theorem lexFrom_open (o : Bool) (b : UInt8) (hb : b = 0x5B ∨ b = 0x7B ∨ b = 0x2C) (rest : List UInt8) :
    lexFrom o (b :: rest) = (lexFrom false rest).map (.symbol [b] :: ·) := by
  rw [lexFrom_cons]
  rcases hb with rfl | rfl | rfl <;> simp [isLetter, isDecimal]

theorem lexFrom_close (o : Bool) (b : UInt8) (hb : b = 0x5D ∨ b = 0x7D) (rest : List UInt8) :
    lexFrom o (b :: rest) = (lexFrom true rest).map (.symbol [b] :: ·) := by
  rw [lexFrom_cons]
  rcases hb with rfl | rfl <;> simp [isLetter, isDecimal]

theorem lexFrom_equals (o : Bool) (y : UInt8) (hy : y ≠ 0x3D) (rest : List UInt8) :
    lexFrom o (0x3D :: y :: rest) = (lexFrom false (y :: rest)).map (.symbol [0x3D] :: ·) := by
  rw [lexFrom_cons]
  simp [isLetter, isDecimal, hy]

theorem lexFrom_dots (o : Bool) (rest : List UInt8) :
    lexFrom o (0x2E :: 0x2E :: 0x2E :: rest) = (lexFrom false rest).map (.symbol [0x2E, 0x2E, 0x2E] :: ·) := by
  rw [lexFrom_cons]
  simp [isLetter, isDecimal]

end Textseg.Spec

namespace Textseg.Gen
open Textseg Spec

/-- The tokens of an element of a table. -/
abbrev elemToks (v : Nat) : List Tok := [.number v, .symbol [0x2C]]

theorem hex_item : ∀ p : UInt8, ∃ h l, sprintf0x02x p = [0x30, 0x78, h, l] ∧ isWordByte h = true ∧ isWordByte l = true ∧
    numberValue [0x30, 0x78, h, l] = some p.toNat := by
  have key : ∀ n : Fin 256, (isWordByte (hexDigit (UInt8.ofNat n.val >>> 4)) && isWordByte (hexDigit (UInt8.ofNat n.val &&& 0xf)) &&
      numberValue [0x30, 0x78, hexDigit (UInt8.ofNat n.val >>> 4), hexDigit (UInt8.ofNat n.val &&& 0xf)] == some n.val) = true := by
    decide +kernel
  intro p
  have := key ⟨p.toNat, p.toNat_lt⟩
  simp only [UInt8.ofNat_toNat, Bool.and_eq_true, beq_iff_eq] at this
  exact ⟨_, _, rfl, this.1.1, this.1.2, this.2⟩

theorem str_comma : str "," = [0x2C] := by decide +kernel

theorem lex_item (p : UInt8) (rest : List UInt8) :
    lexFrom false (sprintf0x02x p ++ str "," ++ rest) = (lexFrom false rest).map (elemToks p.toNat ++ ·) := by
  obtain ⟨h, l, e, h1, h2, h3⟩ := hex_item p
  rw [e, str_comma]
  have := lexFrom_number false [0x78, h, l] (by
    intro x hx
    simp only [List.mem_cons, List.not_mem_nil, or_false] at hx
    rcases hx with rfl | rfl | rfl
    · decide
    · exact h1
    · exact h2) 0x30 (by decide) p.toNat h3 0x2C (by decide) rest
  rw [show [0x30, 0x78, h, l] ++ [0x2C] ++ rest = 0x30 :: [0x78, h, l] ++ 0x2C :: rest by simp, this,
    lexFrom_open _ _ (by decide), Option.map_map]
  rfl

theorem str_append (s t : String) : str (s ++ t) = str s ++ str t := by
  simp [str, String.toUTF8]

theorem digitChar_ne (d : Nat) : UInt8.ofNat (Nat.digitChar d).toNat ≠ 0x0A := by
  by_cases h : d < 16
  · exact (by decide : ∀ d : Fin 16, UInt8.ofNat (Nat.digitChar d.val).toNat ≠ 0x0A) ⟨d, h⟩
  · unfold Nat.digitChar
    iterate 16 rw [if_neg (by omega)]
    decide

theorem mem_toDigitsCore : ∀ (fuel n : Nat) (acc : List Char) (c : Char), c ∈ Nat.toDigitsCore 16 fuel n acc →
    c ∈ acc ∨ ∃ d, c = Nat.digitChar d
  | 0, _, _, _, h => .inl h
  | fuel + 1, n, acc, c, h => by
    rw [Nat.toDigitsCore] at h
    split at h
    · rw [List.mem_cons] at h
      rcases h with h | h
      · exact .inr ⟨_, h⟩
      · exact .inl h
    · rcases mem_toDigitsCore fuel _ _ c h with h | h
      · rw [List.mem_cons] at h
        rcases h with h | h
        · exact .inr ⟨_, h⟩
        · exact .inl h
      · exact .inr h

theorem sprintf04x_no_newline (n : Nat) : (0x0A : UInt8) ∉ sprintf04x n := by
  rw [sprintf04x]
  intro h
  simp only [List.mem_append, List.mem_replicate, List.mem_map] at h
  rcases h with ⟨_, h⟩ | ⟨c, hc, h⟩
  · exact absurd h (by decide)
  · rcases mem_toDigitsCore _ _ _ _ hc with hc | ⟨d, rfl⟩
    · cases hc
    · exact digitChar_ne d h

theorem lex_block_comment (i : Nat) (rest : List UInt8) :
    lexFrom false ((if i % 64 = 0 then str "  // block 0x" ++ sprintf04x (i >>> 6) ++ str "\n" else []) ++ rest) = lexFrom false rest := by
  split
  · rw [show str "  // block 0x" = [0x20, 0x20, 0x2F, 0x2F, 0x20, 0x62, 0x6C, 0x6F, 0x63, 0x6B, 0x20, 0x30, 0x78] by decide +kernel,
      show str "\n" = [0x0A] by decide +kernel]
    have := lexFrom_comment false (([0x20, 0x62, 0x6C, 0x6F, 0x63, 0x6B, 0x20, 0x30, 0x78] : List UInt8) ++ sprintf04x (i >>> 6)) (by
      rw [List.mem_append]
      rintro (h | h)
      · revert h; decide
      · exact sprintf04x_no_newline _ h) rest
    rw [lexFrom_newline] at this
    simp only [List.cons_append, List.nil_append, List.append_assoc] at this ⊢
    rw [lexFrom_blank _ _ (.inl rfl), lexFrom_blank _ _ (.inl rfl), this]
  · rfl

/-- What is printed for the element `v` reads as the number `val v`. -/
def PrintsAs {α : Type} (item : α → Go GoString) (val : α → Nat) : Prop :=
  ∀ v s, item v = .ok s → ∀ rest, lexFrom false (s ++ rest) = (lexFrom false rest).map (elemToks (val v) ++ ·)

theorem lex_row {α : Type} {item : α → Go GoString} {val : α → Nat} (hr : PrintsAs item val) : ∀ (items : List α) (row : List GoString),
    items.mapM item = .ok row → ∀ rest, lexFrom false (row.flatten ++ rest) =
      (lexFrom false rest).map (items.flatMap (fun v => elemToks (val v)) ++ ·)
  | [], row, h, rest => by
    simp only [List.mapM_nil, pure, Except.pure, Except.ok.injEq] at h
    subst h
    simp
  | v :: items, row, h, rest => by
    simp only [List.mapM_cons, bind, Except.bind] at h
    split at h
    · cases h
    · rename_i s hs
      split at h
      · cases h
      · rename_i row' hrow
        simp only [pure, Except.pure, Except.ok.injEq] at h
        subst h
        rw [List.flatten_cons, List.append_assoc, hr v s hs, lex_row hr items row' hrow, Option.map_map]
        rfl

theorem lex_rows {α : Type} {item : α → Go GoString} {val : α → Nat} (hr : PrintsAs item val) (elems : List α) :
    ∀ (fuel i : Nat) (text : GoString), printRows item elems fuel i = .ok text → ∀ rest, lexFrom false (text ++ rest) =
      (lexFrom false rest).map ((elems.drop i).flatMap (fun v => elemToks (val v)) ++ ·)
  | 0, _, _, h, _ => by cases h
  | fuel + 1, i, text, h, rest => by
    rw [printRows] at h
    split at h
    · rename_i hi
      simp only [bind, Except.bind, goSliceFrom, if_pos (Nat.le_of_lt hi), goSliceTo, if_pos (Nat.min_le_left _ _)] at h
      split at h
      · cases h
      · rename_i row hrow
        split at h
        · cases h
        · rename_i rest' hrest
          simp only [Except.ok.injEq] at h
          subst h
          rw [List.append_assoc, List.append_assoc, List.append_assoc, List.append_assoc, lex_block_comment,
            show str "\t" = [0x09] by decide +kernel, show str "\n" = [0x0A] by decide +kernel, List.cons_append, List.nil_append,
            lexFrom_blank _ _ (.inr rfl), lex_row hr _ _ hrow, List.cons_append, List.nil_append, lexFrom_newline,
            lex_rows hr elems fuel (i + 8) rest' hrest, Option.map_map]
          congr 1
          funext ts
          simp only [Function.comp]
          rw [← List.append_assoc, ← List.flatMap_append]
          congr 2
          rw [show List.take (min (elems.drop i).length 8) (elems.drop i) = (elems.drop i).take 8 by
            rw [Nat.min_comm, ← List.take_take, List.take_length], show elems.drop (i + 8) = (elems.drop i).drop 8 by
            rw [List.drop_drop], List.take_append_drop]
    · rename_i hi
      simp only [Except.ok.injEq] at h
      subst h
      rw [List.drop_of_length_le (by omega)]
      simp

theorem mapM_ok {α : Type} {item : α → Go GoString} : ∀ items : List α, (∀ v ∈ items, ∃ s, item v = .ok s) → ∃ row, items.mapM item = .ok row
  | [], _ => ⟨[], rfl⟩
  | v :: items, h => by
    obtain ⟨s, hs⟩ := h v (by simp)
    obtain ⟨row, hrow⟩ := mapM_ok items fun w hw => h w (by simp [hw])
    exact ⟨s :: row, by simp [List.mapM_cons, bind, Except.bind, hs, hrow, pure, Except.pure]⟩

theorem rows_ok {α : Type} {item : α → Go GoString} (elems : List α) (h : ∀ v ∈ elems, ∃ s, item v = .ok s) :
    ∀ (fuel i : Nat), elems.length < i + fuel → 0 < fuel → ∃ text, printRows item elems fuel i = .ok text
  | 0, _, _, h0 => by omega
  | fuel + 1, i, hf, _ => by
    rw [printRows]
    split
    · rename_i hi
      obtain ⟨row, hrow⟩ := mapM_ok (item := item) (List.take (min (elems.drop i).length 8) (elems.drop i))
        fun v hv => h v (List.mem_of_mem_drop (List.mem_of_mem_take hv))
      simp only [bind, Except.bind, goSliceFrom, if_pos (Nat.le_of_lt hi), goSliceTo, if_pos (Nat.min_le_left _ _), hrow]
      obtain ⟨text, ht⟩ := rows_ok elems h fuel (i + 8) (by omega) (by omega)
      rw [ht]
      exact ⟨_, rfl⟩
    · exact ⟨_, rfl⟩

/-- If some element cannot be printed, then nothing is, and the panic is that of an element. -/
theorem mapM_error {α : Type} {item : α → Go GoString} {e : GoPanic} (he : ∀ v s, item v = .error s → s = e) : ∀ items : List α,
    (∃ v ∈ items, ∃ e', item v = .error e') → items.mapM item = .error e
  | [], h => by obtain ⟨v, hv, _⟩ := h; cases hv
  | v :: items, h => by
    simp only [List.mapM_cons, bind, Except.bind]
    cases hv : item v with
    | error e' => rw [he v e' hv]
    | ok s =>
      simp only
      rw [mapM_error he items]
      obtain ⟨w, hw, e', h'⟩ := h
      rw [List.mem_cons] at hw
      rcases hw with rfl | hw
      · rw [hv] at h'; cases h'
      · exact ⟨w, hw, e', h'⟩

theorem rows_error {α : Type} {item : α → Go GoString} {e : GoPanic} (he : ∀ v s, item v = .error s → s = e) (elems : List α) :
    ∀ (fuel i : Nat), elems.length < i + fuel → 0 < fuel → (∃ v ∈ elems.drop i, ∃ e', item v = .error e') →
      printRows item elems fuel i = .error e
  | 0, _, _, h0, _ => by omega
  | fuel + 1, i, hf, _, h => by
    rw [printRows]
    split
    · rename_i hi
      simp only [bind, Except.bind, goSliceFrom, if_pos (Nat.le_of_lt hi), goSliceTo, if_pos (Nat.min_le_left _ _)]
      rw [show List.take (min (elems.drop i).length 8) (elems.drop i) = (elems.drop i).take 8 by
            rw [Nat.min_comm, ← List.take_take, List.take_length]]
      obtain ⟨v, hv, h'⟩ := h
      rw [← List.take_append_drop 8 (elems.drop i), List.mem_append] at hv
      rcases hv with hv | hv
      · rw [mapM_error he _ ⟨v, hv, h'⟩]
      · by_cases hex : ∃ v ∈ (elems.drop i).take 8, ∃ e', item v = .error e'
        · rw [mapM_error he _ hex]
        · obtain ⟨row, hrow⟩ := mapM_ok (item := item) ((elems.drop i).take 8) fun w hw => by
            cases hw' : item w with
            | ok s => exact ⟨s, rfl⟩
            | error e' => exact absurd ⟨w, hw, e', hw'⟩ hex
          rw [hrow]
          simp only
          rw [rows_error he elems fuel (i + 8) (by omega) (by omega) ⟨v, by rwa [List.drop_drop] at hv, h'⟩]
    · rename_i hi
      obtain ⟨v, hv, _⟩ := h
      rw [List.drop_of_length_le (by omega)] at hv
      cases hv

end Textseg.Gen

namespace Textseg.Gen
open Textseg Spec

/-- A word: a letter followed by letters and digits. -/
def isWord (w : List UInt8) : Bool := (w.head?.map isLetter).getD false && w.tail.all isWordByte

theorem lexFrom_word' (o : Bool) (w : List UInt8) (hw : isWord w = true) (y : UInt8) (hy : isWordByte y = false) (rest : List UInt8) :
    lexFrom o (w ++ y :: rest) = (lexFrom (!plainKeywords.contains w) (y :: rest)).map (.word w :: ·) := by
  cases w with
  | nil => cases hw
  | cons b w =>
    simp only [isWord, List.head?_cons, Option.map_some, Option.getD_some, List.tail_cons, Bool.and_eq_true, List.all_eq_true] at hw
    exact lexFrom_word o w hw.2 b hw.1 y hy rest

theorem lex_header (rest : List UInt8) : lexFrom false (str "// Generated by generate.go. DO NOT EDIT!\n" ++ str "\n" ++
    str "package charprops\n" ++ str "\n" ++ rest) =
    (lexFrom false rest).map ([.word (ascii "package"), .word (ascii "charprops"), .semicolon] ++ ·) := by
  rw [show str "// Generated by generate.go. DO NOT EDIT!\n" = 0x2F :: 0x2F :: str " Generated by generate.go. DO NOT EDIT!" ++ 0x0A :: [] by
      decide +kernel, show str "\n" = [0x0A] by decide +kernel,
    show str "package charprops\n" = ascii "package" ++ 0x20 :: (ascii "charprops" ++ [0x0A]) by decide +kernel]
  simp only [List.append_assoc, List.cons_append, List.nil_append]
  rw [← List.cons_append, ← List.cons_append, lexFrom_comment _ _ (by decide +kernel), lexFrom_newline, lexFrom_newline,
    lexFrom_word' false (ascii "package") (by decide +kernel) 0x20 (by decide), lexFrom_blank _ _ (.inl rfl),
    lexFrom_word' _ (ascii "charprops") (by decide +kernel) 0x0A (by decide),
    show (!plainKeywords.contains (ascii "charprops")) = true by decide +kernel, lexFrom_newline_operand, lexFrom_newline]
  simp only [Option.map_map]
  rfl

theorem lex_var_indices (rest : List UInt8) : lexFrom false (str "var lookupIndices = [...]uint8{\n" ++ rest) =
    (lexFrom false rest).map ([.word (ascii "var"), .word (ascii "lookupIndices"), .symbol (ascii "="), .symbol (ascii "["), .symbol (ascii "..."),
      .symbol (ascii "]"), .word (ascii "uint8"), .symbol (ascii "{")] ++ ·) := by
  rw [show str "var lookupIndices = [...]uint8{\n" = ascii "var" ++ 0x20 :: (ascii "lookupIndices" ++ 0x20 :: 0x3D :: 0x20 :: 0x5B :: 0x2E :: 0x2E ::
      0x2E :: 0x5D :: (ascii "uint8" ++ [0x7B, 0x0A])) by decide +kernel]
  simp only [List.append_assoc, List.cons_append, List.nil_append]
  rw [lexFrom_word' false (ascii "var") (by decide +kernel) 0x20 (by decide), lexFrom_blank _ _ (.inl rfl),
    lexFrom_word' _ (ascii "lookupIndices") (by decide +kernel) 0x20 (by decide), lexFrom_blank _ _ (.inl rfl), lexFrom_equals _ _ (by decide),
    lexFrom_blank _ _ (.inl rfl), lexFrom_open _ _ (by decide), lexFrom_dots, lexFrom_close _ _ (by decide),
    lexFrom_word' _ (ascii "uint8") (by decide +kernel) 0x7B (by decide), lexFrom_open _ _ (by decide), lexFrom_newline]
  simp only [Option.map_map]
  congr 1

theorem lex_var_props (rest : List UInt8) : lexFrom false (str "var lookupProps = [...]CharProperties{\n" ++ rest) =
    (lexFrom false rest).map ([.word (ascii "var"), .word (ascii "lookupProps"), .symbol (ascii "="), .symbol (ascii "["), .symbol (ascii "..."),
      .symbol (ascii "]"), .word (ascii "CharProperties"), .symbol (ascii "{")] ++ ·) := by
  rw [show str "var lookupProps = [...]CharProperties{\n" = ascii "var" ++ 0x20 :: (ascii "lookupProps" ++ 0x20 :: 0x3D :: 0x20 :: 0x5B :: 0x2E :: 0x2E ::
      0x2E :: 0x5D :: (ascii "CharProperties" ++ [0x7B, 0x0A])) by decide +kernel]
  simp only [List.append_assoc, List.cons_append, List.nil_append]
  rw [lexFrom_word' false (ascii "var") (by decide +kernel) 0x20 (by decide), lexFrom_blank _ _ (.inl rfl),
    lexFrom_word' _ (ascii "lookupProps") (by decide +kernel) 0x20 (by decide), lexFrom_blank _ _ (.inl rfl), lexFrom_equals _ _ (by decide),
    lexFrom_blank _ _ (.inl rfl), lexFrom_open _ _ (by decide), lexFrom_dots, lexFrom_close _ _ (by decide),
    lexFrom_word' _ (ascii "CharProperties") (by decide +kernel) 0x7B (by decide), lexFrom_open _ _ (by decide), lexFrom_newline]
  simp only [Option.map_map]
  congr 1

theorem lex_close (rest : List UInt8) : lexFrom false (str "}\n" ++ rest) =
    (lexFrom false rest).map ([.symbol (ascii "}"), .semicolon] ++ ·) := by
  rw [show str "}\n" = [0x7D, 0x0A] by decide +kernel, List.cons_append, List.cons_append, List.nil_append,
    lexFrom_close _ _ (by decide), lexFrom_newline_operand, Option.map_map, show ascii "}" = [0x7D] by decide +kernel]
  rfl

theorem reads_index : PrintsAs printIndex UInt16.toNat := by
  intro v s h rest
  rw [printIndex] at h
  split at h
  · cases h
  · rename_i hv
    simp only [Except.ok.injEq] at h
    subst h
    rw [lex_item]
    have : v.toNat ≤ 255 := by
      rw [UInt16.lt_iff_toNat_lt] at hv
      exact Nat.le_of_not_lt hv
    rw [UInt16.toNat_toUInt8, Nat.mod_eq_of_lt (by omega)]

theorem reads_prop : PrintsAs printProp UInt8.toNat := by
  intro v s h rest
  simp only [printProp, Except.ok.injEq] at h
  subst h
  exact lex_item v rest

/-- What is printed reads as the two tables. -/
theorem lex_source {raw : RawPropertyTree} {src : GoString} (h : printSource raw = .ok src) :
    goTokens src = some (tableFile (raw.Indices.map UInt16.toNat) (raw.Properties.map UInt8.toNat)) := by
  rw [printSource] at h
  simp only [bind, Except.bind] at h
  split at h
  · cases h
  · rename_i t1 h1
    split at h
    · cases h
    · rename_i t2 h2
      simp only [Except.ok.injEq] at h
      subst h
      rw [goTokens_eq, List.append_assoc, List.append_assoc, List.append_assoc, List.append_assoc, List.append_assoc, lex_header,
        lex_var_indices, lex_rows reads_index _ _ _ _ h1, lex_close, lex_var_props, lex_rows reads_prop _ _ _ _ h2,
        ← List.append_nil (str "}\n"), lex_close, lexFrom_nil]
      simp only [Option.map_some, List.drop_zero, Bool.false_eq_true, if_false, Option.some.injEq]
      simp only [tableFile, arrayDeclaration, List.flatMap_map, elemToks, show ascii "," = [0x2C] by decide +kernel, List.append_assoc,
        List.cons_append, List.nil_append]

theorem source_ok (raw : RawPropertyTree) (h : ∀ v ∈ raw.Indices, v ≤ 255) : ∃ src, printSource raw = .ok src := by
  obtain ⟨t1, h1⟩ := rows_ok (item := printIndex) raw.Indices (fun v hv => by
    rw [printIndex, if_neg]
    · exact ⟨_, rfl⟩
    · have := h v hv
      rw [UInt16.le_iff_toNat_le] at this
      rw [UInt16.lt_iff_toNat_lt]
      omega) (raw.Indices.length + 1) 0 (by omega) (by omega)
  obtain ⟨t2, h2⟩ := rows_ok (item := printProp) raw.Properties (fun v hv => ⟨_, rfl⟩) (raw.Properties.length + 1) 0 (by omega) (by omega)
  rw [printSource]
  simp only [bind, Except.bind, h1, h2]
  exact ⟨_, rfl⟩

theorem source_panics (raw : RawPropertyTree) (h : ∃ v ∈ raw.Indices, 255 < v) :
    printSource raw = .error (.explicit "too many indices to use uint8") := by
  rw [printSource, rows_error (e := .explicit "too many indices to use uint8") (fun v s h => by
    rw [printIndex] at h
    split at h
    · simp only [Except.error.injEq] at h
      exact h.symm
    · cases h) raw.Indices (raw.Indices.length + 1) 0 (by omega) (by omega)]
  · rfl
  · obtain ⟨v, hv, h⟩ := h
    exact ⟨v, by simpa using hv, _, by rw [printIndex, if_pos h]⟩

end Textseg.Gen
