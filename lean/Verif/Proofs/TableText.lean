import Verif.Proofs.GenPrint
import Verif.Proofs.GenUCD
import Verif.Text.TableText
/-!
# The text of property_table_raw.go reads as the two tables
-/

namespace Textseg

theorem bytesLE_fuel : ∀ (f g n : Nat), n ≤ f → n ≤ g → bytesLE f n = bytesLE g n := by
  intro f
  induction f with
  | zero =>
    intro g n hf hg
    obtain rfl : n = 0 := by omega
    cases g <;> simp [bytesLE]
  | succ f ih =>
    intro g n hf hg
    cases g with
    | zero =>
      obtain rfl : n = 0 := by omega
      simp [bytesLE]
    | succ g =>
      rw [bytesLE, bytesLE]
      by_cases h : n = 0
      · simp [h]
      · rw [if_neg h, if_neg h, ih g (n / 256) (by omega) (by omega)]

theorem textLine_zero : textLine 0 = [] := rfl

theorem textLine_add (b n : Nat) (hb : 0 < b) (hb' : b < 256) : textLine (b + 256 * n) = UInt8.ofNat b :: textLine n := by
  rw [textLine, bytesLE_fuel _ (b + 256 * n + 1) _ (by omega) (by omega), bytesLE, if_neg (by omega),
    show (b + 256 * n) % 256 = b by omega, show (b + 256 * n) / 256 = n by omega, textLine,
    bytesLE_fuel _ n n (by omega) (by omega)]

end Textseg

namespace Textseg.Gen
open Textseg Spec

/-- A hexadecimal digit, as a number. -/
def digitN (n : Nat) : Nat := Nat.add (Nat.add 48 n) (Nat.mul 39 (Nat.div n 10))

/-- Half a byte. -/
def nibble (b i : Nat) : Nat := Nat.mod (Nat.shiftRight b (Nat.mul 4 i)) 16

/-- Element `j` of a block: "0x02,", followed by the text with number `rest`. -/
def elemN (b j rest : Nat) : Nat :=
  Nat.add (Nat.add 0x2C00007830 (Nat.mul 0x10000 (Nat.add (digitN (nibble b (Nat.sub 127 (Nat.mul 2 j))))
    (Nat.mul 256 (digitN (nibble b (Nat.sub 126 (Nat.mul 2 j)))))))) (Nat.mul 0x10000000000 rest)

def spaceN (rest : Nat) : Nat := Nat.add 0x20 (Nat.mul 256 rest)

/-- A row of eight elements, as `gofmt` leaves it. -/
def rowN (b j : Nat) : Nat :=
  Nat.add 9 (Nat.mul 256 (elemN b j (spaceN (elemN b (Nat.add j 1) (spaceN (elemN b (Nat.add j 2) (spaceN (elemN b (Nat.add j 3)
    (spaceN (elemN b (Nat.add j 4) (spaceN (elemN b (Nat.add j 5) (spaceN (elemN b (Nat.add j 6) (spaceN (elemN b (Nat.add j 7)
    0))))))))))))))))

/-- A comment "// block 0x0000". -/
def commentN (i : Nat) : Nat :=
  Nat.add 0x7830206B636F6C62202F2F09 (Nat.mul 0x1000000000000000000000000 (Nat.add (digitN (nibble i 3)) (Nat.mul 256
    (Nat.add (digitN (nibble i 2)) (Nat.mul 256 (Nat.add (digitN (nibble i 1)) (Nat.mul 256 (digitN (nibble i 0)))))))))

/-- Whether the lines of the text begin with those of the given blocks, and with which line it goes on. -/
def skipBlocks : Nat → List Nat → List Nat → Option (List Nat)
  | _, [], ls => some ls
  | i, b :: bs, c :: l0 :: l1 :: l2 :: l3 :: l4 :: l5 :: l6 :: l7 :: ls =>
    cond (Nat.beq c (commentN i)) (cond (Nat.beq l0 (rowN b 0)) (cond (Nat.beq l1 (rowN b 8)) (cond (Nat.beq l2 (rowN b 16))
      (cond (Nat.beq l3 (rowN b 24)) (cond (Nat.beq l4 (rowN b 32)) (cond (Nat.beq l5 (rowN b 40)) (cond (Nat.beq l6 (rowN b 48))
      (cond (Nat.beq l7 (rowN b 56)) (skipBlocks (Nat.succ i) bs ls) none) none) none) none) none) none) none) none) none
  | _, _, _ => none

def afterHeader : List Nat → Option (List Nat)
  | l0 :: l1 :: l2 :: l3 :: l4 :: ls =>
    cond (Nat.beq l0 (text! "// Generated by generate.go. DO NOT EDIT!")) (cond (Nat.beq l1 0) (cond (Nat.beq l2 (text! "package charprops"))
      (cond (Nat.beq l3 0) (cond (Nat.beq l4 (text! "var lookupIndices = [...]uint8{")) (some ls) none) none) none) none) none
  | _ => none

def afterMiddle : List Nat → Option (List Nat)
  | l0 :: l1 :: ls => cond (Nat.beq l0 (text! "}")) (cond (Nat.beq l1 (text! "var lookupProps = [...]CharProperties{")) (some ls) none) none
  | _ => none

def atEnd : List Nat → Bool
  | [l] => Nat.beq l (text! "}")
  | _ => false

def checkText (ls : List Nat) : Bool :=
  match afterHeader ls with
  | none => false
  | some ls => match skipBlocks 0 lookupIndices.blocks ls with
    | none => false
    | some ls => match afterMiddle ls with
      | none => false
      | some ls => match skipBlocks 0 lookupProps.blocks ls with
        | none => false
        | some ls => atEnd ls

set_option maxRecDepth 100000 in
theorem text_checked : checkText Text.tableText.flatten = true := by decide +kernel


theorem textFile_cons (l : Nat) (ls : List Nat) : textFile (l :: ls) = textLine l ++ 0x0A :: textFile ls := by
  simp [textFile]

theorem digitN_range (h : Nat) (hh : h < 16) : 0 < digitN h ∧ digitN h < 256 :=
  (by decide : ∀ h : Fin 16, 0 < digitN h.val ∧ digitN h.val < 256) ⟨h, hh⟩

theorem digit_word (h : Nat) (hh : h < 16) : isWordByte (UInt8.ofNat (digitN h)) = true :=
  (by decide : ∀ h : Fin 16, isWordByte (UInt8.ofNat (digitN h.val)) = true) ⟨h, hh⟩

theorem digit_value (h l : Nat) (hh : h < 16) (hl : l < 16) :
    numberValue [0x30, 0x78, UInt8.ofNat (digitN h), UInt8.ofNat (digitN l)] = some (16 * h + l) :=
  (by decide +kernel : ∀ h l : Fin 16, numberValue [0x30, 0x78, UInt8.ofNat (digitN h.val), UInt8.ofNat (digitN l.val)] =
    some (16 * h.val + l.val)) ⟨h, hh⟩ ⟨l, hl⟩

theorem nibble_lt (b i : Nat) : nibble b i < 16 := Nat.mod_lt _ (by decide)

theorem blockByte_nibbles (b j : Nat) (hj : j < 64) :
    (blockByte b j).toNat = 16 * nibble b (Nat.sub 127 (Nat.mul 2 j)) + nibble b (Nat.sub 126 (Nat.mul 2 j)) := by
  have e1 : Nat.mul 4 (Nat.sub 127 (Nat.mul 2 j)) = 8 * (63 - j) + 4 := by
    show 4 * (127 - 2 * j) = _
    omega
  have e2 : Nat.mul 4 (Nat.sub 126 (Nat.mul 2 j)) = 8 * (63 - j) := by
    show 4 * (126 - 2 * j) = _
    omega
  rw [blockByte, nibble, nibble, e1, e2]
  show _ = 16 * ((b >>> (8 * (63 - j) + 4)) % 16) + (b >>> (8 * (63 - j))) % 16
  rw [Nat.shiftRight_add, Nat.shiftRight_eq_div_pow (b >>> (8 * (63 - j))) 4, UInt8.toNat_ofNat']
  omega

theorem text_elem (b j rest : Nat) : textLine (elemN b j rest) =
    0x30 :: 0x78 :: UInt8.ofNat (digitN (nibble b (Nat.sub 127 (Nat.mul 2 j)))) ::
      UInt8.ofNat (digitN (nibble b (Nat.sub 126 (Nat.mul 2 j)))) :: 0x2C :: textLine rest := by
  have h1 := digitN_range _ (nibble_lt b (Nat.sub 127 (Nat.mul 2 j)))
  have h2 := digitN_range _ (nibble_lt b (Nat.sub 126 (Nat.mul 2 j)))
  rw [elemN]
  generalize digitN (nibble b (Nat.sub 127 (Nat.mul 2 j))) = x at h1 ⊢
  generalize digitN (nibble b (Nat.sub 126 (Nat.mul 2 j))) = y at h2 ⊢
  rw [show Nat.add (Nat.add 0x2C00007830 (Nat.mul 0x10000 (Nat.add x (Nat.mul 256 y)))) (Nat.mul 0x10000000000 rest) =
      0x30 + 256 * (0x78 + 256 * (x + 256 * (y + 256 * (0x2C + 256 * rest)))) by
    show 0x2C00007830 + 0x10000 * (x + 256 * y) + 0x10000000000 * rest = _
    omega, textLine_add _ _ (by decide) (by decide), textLine_add _ _ (by decide) (by decide), textLine_add _ _ h1.1 h1.2,
    textLine_add _ _ h2.1 h2.2, textLine_add _ _ (by decide) (by decide)]
  rfl

theorem lex_elem (b j rest : Nat) (hj : j < 64) (more : List UInt8) : lexFrom false (textLine (elemN b j rest) ++ more) =
    (lexFrom false (textLine rest ++ more)).map (elemToks (blockByte b j).toNat ++ ·) := by
  rw [text_elem, blockByte_nibbles b j hj]
  have h1 := nibble_lt b (Nat.sub 127 (Nat.mul 2 j))
  have h2 := nibble_lt b (Nat.sub 126 (Nat.mul 2 j))
  generalize nibble b (Nat.sub 127 (Nat.mul 2 j)) = x at h1 ⊢
  generalize nibble b (Nat.sub 126 (Nat.mul 2 j)) = y at h2 ⊢
  have := lexFrom_number false [0x78, UInt8.ofNat (digitN x), UInt8.ofNat (digitN y)] (by
    intro z hz
    simp only [List.mem_cons, List.not_mem_nil, or_false] at hz
    rcases hz with rfl | rfl | rfl
    · decide
    · exact digit_word x h1
    · exact digit_word y h2) 0x30 (by decide) _ (digit_value x y h1 h2) 0x2C (by decide) (textLine rest ++ more)
  simp only [List.cons_append, List.nil_append] at this ⊢
  rw [this, lexFrom_open _ _ (by decide), Option.map_map]
  rfl

theorem lex_space (rest : Nat) (more : List UInt8) :
    lexFrom false (textLine (spaceN rest) ++ more) = lexFrom false (textLine rest ++ more) := by
  rw [spaceN, show Nat.add 0x20 (Nat.mul 256 rest) = 0x20 + 256 * rest from rfl, textLine_add _ _ (by decide) (by decide), List.cons_append]
  exact lexFrom_blank _ _ (.inl rfl) _

theorem lex_rowN (b j : Nat) (hj : j + 7 < 64) (more : List UInt8) : lexFrom false (textLine (rowN b j) ++ 0x0A :: more) =
    (lexFrom false more).map ((List.range' j 8).flatMap (fun i => elemToks (blockByte b i).toNat) ++ ·) := by
  rw [rowN, show ∀ x, Nat.add 9 (Nat.mul 256 x) = 9 + 256 * x from fun _ => rfl, textLine_add _ _ (by decide) (by decide), List.cons_append,
    lexFrom_blank _ (UInt8.ofNat 9) (.inr rfl), lex_elem _ _ _ (by omega), lex_space, lex_elem _ (Nat.add j 1) _ (show j + 1 < 64 by omega), lex_space,
    lex_elem _ (Nat.add j 2) _ (show j + 2 < 64 by omega), lex_space, lex_elem _ (Nat.add j 3) _ (show j + 3 < 64 by omega), lex_space,
    lex_elem _ (Nat.add j 4) _ (show j + 4 < 64 by omega), lex_space, lex_elem _ (Nat.add j 5) _ (show j + 5 < 64 by omega), lex_space,
    lex_elem _ (Nat.add j 6) _ (show j + 6 < 64 by omega), lex_space, lex_elem _ (Nat.add j 7) _ (show j + 7 < 64 by omega), textLine_zero, List.nil_append, lexFrom_newline]
  simp only [Option.map_map]
  rfl

theorem text_comment (i : Nat) : textLine (commentN i) = 0x09 :: 0x2F :: 0x2F :: [0x20, 0x62, 0x6C, 0x6F, 0x63, 0x6B, 0x20, 0x30, 0x78,
    UInt8.ofNat (digitN (nibble i 3)), UInt8.ofNat (digitN (nibble i 2)), UInt8.ofNat (digitN (nibble i 1)),
    UInt8.ofNat (digitN (nibble i 0))] := by
  have h3 := digitN_range _ (nibble_lt i 3)
  have h2 := digitN_range _ (nibble_lt i 2)
  have h1 := digitN_range _ (nibble_lt i 1)
  have h0 := digitN_range _ (nibble_lt i 0)
  rw [commentN]
  generalize digitN (nibble i 3) = x3 at h3 ⊢
  generalize digitN (nibble i 2) = x2 at h2 ⊢
  generalize digitN (nibble i 1) = x1 at h1 ⊢
  generalize digitN (nibble i 0) = x0 at h0 ⊢
  rw [show Nat.add 0x7830206B636F6C62202F2F09 (Nat.mul 0x1000000000000000000000000 (Nat.add x3 (Nat.mul 256
    (Nat.add x2 (Nat.mul 256 (Nat.add x1 (Nat.mul 256 x0))))))) =
    0x09 + 256 * (0x2F + 256 * (0x2F + 256 * (0x20 + 256 * (0x62 + 256 * (0x6C + 256 * (0x6F + 256 * (0x63 + 256 * (0x6B + 256 * (0x20 +
      256 * (0x30 + 256 * (0x78 + 256 * (x3 + 256 * (x2 + 256 * (x1 + 256 * (x0 + 256 * 0))))))))))))))) by
    show 0x7830206B636F6C62202F2F09 + 0x1000000000000000000000000 * (x3 + 256 * (x2 + 256 * (x1 + 256 * x0))) = _
    omega]
  iterate 12 rw [textLine_add _ _ (by decide) (by decide)]
  rw [textLine_add _ _ h3.1 h3.2, textLine_add _ _ h2.1 h2.2, textLine_add _ _ h1.1 h1.2, textLine_add _ _ h0.1 h0.2, textLine_zero]
  rfl

theorem lex_commentN (i : Nat) (more : List UInt8) :
    lexFrom false (textLine (commentN i) ++ 0x0A :: more) = lexFrom false more := by
  have hd : ∀ h, h < 16 → (0x0A : UInt8) ≠ UInt8.ofNat (digitN h) := fun h hh =>
    (by decide : ∀ h : Fin 16, (0x0A : UInt8) ≠ UInt8.ofNat (digitN h.val)) ⟨h, hh⟩
  rw [text_comment, List.cons_append, lexFrom_blank _ _ (.inr rfl), lexFrom_comment, lexFrom_newline]
  intro h
  simp only [List.mem_cons, List.not_mem_nil, or_false] at h
  rcases h with h | h | h | h | h | h | h | h | h | h | h | h | h
  all_goals first
    | exact absurd h (by decide)
    | exact hd _ (nibble_lt _ _) h

theorem cond_some {α : Type} {c : Bool} {x : Option α} {y : α} (h : cond c x none = some y) : c = true ∧ x = some y := by
  cases c
  · cases h
  · exact ⟨rfl, h⟩

theorem lex_blocks : ∀ (bs ls ls' : List Nat) (i : Nat), skipBlocks i bs ls = some ls' → lexFrom false (textFile ls) =
    (lexFrom false (textFile ls')).map ((bs.flatMap bytesOf).flatMap (fun v => elemToks v.toNat) ++ ·)
  | [], ls, ls', i, h => by
    simp only [skipBlocks, Option.some.injEq] at h
    subst h
    simp
  | b :: bs, ls, ls', i, h => by
    unfold skipBlocks at h
    split at h
    · rename_i h'; cases h'
    · rename_i h1 c l0 l1 l2 l3 l4 l5 l6 l7 ls h2
      cases h2
      obtain ⟨k, h⟩ := cond_some h
      obtain ⟨k0, h⟩ := cond_some h
      obtain ⟨k1, h⟩ := cond_some h
      obtain ⟨k2, h⟩ := cond_some h
      obtain ⟨k3, h⟩ := cond_some h
      obtain ⟨k4, h⟩ := cond_some h
      obtain ⟨k5, h⟩ := cond_some h
      obtain ⟨k6, h⟩ := cond_some h
      obtain ⟨k7, h⟩ := cond_some h
      have e : ∀ {x y : Nat}, Nat.beq x y = true → x = y := fun h => Nat.eq_of_beq_eq_true h
      rw [e k, e k0, e k1, e k2, e k3, e k4, e k5, e k6, e k7]
      simp only [textFile_cons]
      rw [lex_commentN, lex_rowN _ _ (by decide), lex_rowN _ _ (by decide), lex_rowN _ _ (by decide), lex_rowN _ _ (by decide),
        lex_rowN _ _ (by decide), lex_rowN _ _ (by decide), lex_rowN _ _ (by decide), lex_rowN _ _ (by decide),
        lex_blocks bs ls ls' _ h]
      simp only [Option.map_map]
      rfl
    · cases h


theorem str_newline (a b : List UInt8) (h : b = a ++ [0x0A]) (rest : List UInt8) : a ++ 0x0A :: rest = b ++ rest := by
  rw [h]; simp

theorem lex_afterHeader {ls ls' : List Nat} (h : afterHeader ls = some ls') : lexFrom false (textFile ls) =
    (lexFrom false (textFile ls')).map (([.word (ascii "package"), .word (ascii "charprops"), .semicolon] ++
      [.word (ascii "var"), .word (ascii "lookupIndices"), .symbol (ascii "="), .symbol (ascii "["), .symbol (ascii "..."),
      .symbol (ascii "]"), .word (ascii "uint8"), .symbol (ascii "{")]) ++ ·) := by
  unfold afterHeader at h
  split at h
  · obtain ⟨k0, h⟩ := cond_some h
    obtain ⟨k1, h⟩ := cond_some h
    obtain ⟨k2, h⟩ := cond_some h
    obtain ⟨k3, h⟩ := cond_some h
    obtain ⟨k4, h⟩ := cond_some h
    cases h
    have e : ∀ {x y : Nat}, Nat.beq x y = true → x = y := fun h => Nat.eq_of_beq_eq_true h
    rw [e k0, e k1, e k2, e k3, e k4]
    simp only [textFile_cons]
    rw [str_newline _ (str "// Generated by generate.go. DO NOT EDIT!\n") (by decide +kernel), str_newline (textLine 0) (str "\n") (by decide +kernel),
      str_newline _ (str "package charprops\n") (by decide +kernel), str_newline (textLine 0) (str "\n") (by decide +kernel),
      str_newline _ (str "var lookupIndices = [...]uint8{\n") (by decide +kernel)]
    have := lex_header (str "var lookupIndices = [...]uint8{\n" ++ textFile ls')
    rw [lex_var_indices, Option.map_map] at this
    simp only [List.append_assoc] at this ⊢
    rw [this]
    rfl
  · cases h

theorem lex_afterMiddle {ls ls' : List Nat} (h : afterMiddle ls = some ls') : lexFrom false (textFile ls) =
    (lexFrom false (textFile ls')).map (([.symbol (ascii "}"), .semicolon] ++
      [.word (ascii "var"), .word (ascii "lookupProps"), .symbol (ascii "="), .symbol (ascii "["), .symbol (ascii "..."),
      .symbol (ascii "]"), .word (ascii "CharProperties"), .symbol (ascii "{")]) ++ ·) := by
  unfold afterMiddle at h
  split at h
  · obtain ⟨k0, h⟩ := cond_some h
    obtain ⟨k1, h⟩ := cond_some h
    cases h
    have e : ∀ {x y : Nat}, Nat.beq x y = true → x = y := fun h => Nat.eq_of_beq_eq_true h
    rw [e k0, e k1]
    simp only [textFile_cons]
    rw [str_newline _ (str "}\n") (by decide +kernel), str_newline _ (str "var lookupProps = [...]CharProperties{\n") (by decide +kernel),
      lex_close, lex_var_props, Option.map_map]
    rfl
  · cases h

theorem lex_atEnd {ls : List Nat} (h : atEnd ls = true) : lexFrom false (textFile ls) = some [.symbol (ascii "}"), .semicolon] := by
  unfold atEnd at h
  split at h
  · rw [Nat.eq_of_beq_eq_true h, textFile_cons, str_newline _ (str "}\n") (by decide +kernel), lex_close]
    rfl
  · cases h

theorem lex_checked {ls : List Nat} (h : checkText ls = true) : goTokens (textFile ls) =
    some (tableFile ((tableBytes lookupIndices).map UInt8.toNat) ((tableBytes lookupProps).map UInt8.toNat)) := by
  unfold checkText at h
  split at h
  · cases h
  · rename_i l1 h1
    split at h
    · cases h
    · rename_i l2 h2
      split at h
      · cases h
      · rename_i l3 h3
        split at h
        · cases h
        · rename_i l4 h4
          rw [goTokens_eq, lex_afterHeader h1, lex_blocks _ _ _ _ h2, lex_afterMiddle h3, lex_blocks _ _ _ _ h4, lex_atEnd h]
          simp only [Option.map_some, tableFile, arrayDeclaration, List.flatMap_map, elemToks, show ascii "," = [0x2C] by decide +kernel,
            List.append_assoc, List.cons_append, List.nil_append, tableBytes]

/-- The text of the committed file reads as the two tables of the model. -/
theorem table_text : goTokens (textFile Text.tableText.flatten) =
    some (tableFile ((tableBytes lookupIndices).map UInt8.toNat) ((tableBytes lookupProps).map UInt8.toNat)) := lex_checked text_checked

end Textseg.Gen
