import Verif.GoLang.Program
import Verif.Proofs.TableText
/-!
# The parser finds the two tables in the text of property_table_raw.go
-/

namespace Textseg.GoLang
open Textseg Textseg.Gen

/-- The tokens of an element of a table. -/
def elemT (v : UInt8) : List Tok := [.num v.toNat, .op (name! ",")]

theorem lexLine_space (f : Nat) (b : UInt8) (h : b = 0x20 ∨ b = 0x09) (bs : List UInt8) :
    lexLine (f + 1) (b :: bs) = lexLine f bs := by
  rw [lexLine.eq_def]
  rcases h with rfl | rfl <;> rfl

theorem lexLine_comma (f : Nat) (bs : List UInt8) :
    lexLine (f + 1) (0x2C :: bs) = (lexLine f bs).map (.op (name! ",") :: ·) := by
  have h : lexOp (0x2C :: bs) = some (name! ",", bs) := by
    have h3 : ∀ n, ops3.contains (encode (List.take 3 ((0x2C : UInt8) :: n))) = false := by
      intro n
      simp only [List.take_succ_cons, encode, List.foldr_cons, ops3, List.contains_cons, List.contains_nil, Bool.or_false]
      generalize List.foldr _ _ _ = z
      simp only [show (0x2C : UInt8).toNat = 44 from rfl, Bool.or_eq_false_iff, beq_eq_false_iff_ne, ne_eq]
      omega
    have h2 : ∀ n, ops2.contains (encode (List.take 2 ((0x2C : UInt8) :: n))) = false := by
      intro n
      simp only [List.take_succ_cons, encode, List.foldr_cons, ops2, List.contains_cons, List.contains_nil, Bool.or_false]
      generalize List.foldr _ _ _ = z
      simp only [show (0x2C : UInt8).toNat = 44 from rfl, Bool.or_eq_false_iff, beq_eq_false_iff_ne, ne_eq]
      omega
    unfold lexOp
    simp only [h3, h2, Bool.and_false, Bool.false_eq_true, if_false]
    rfl
  rw [lexLine]
  · rw [if_neg (by decide), if_neg (by decide), if_neg (by decide), if_neg (by decide), if_neg (by decide), h]
    rfl
  · intro _ h'
    exact absurd h' (by decide)

theorem digit_class (h : Nat) (hh : h < 16) :
    (isLetter (UInt8.ofNat (digitN h)) || isDigit (UInt8.ofNat (digitN h))) = true :=
  (by decide : ∀ h : Fin 16, (isLetter (UInt8.ofNat (digitN h.val)) || isDigit (UInt8.ofNat (digitN h.val))) = true) ⟨h, hh⟩

theorem numVal_digits (h l : Nat) (hh : h < 16) (hl : l < 16) :
    numVal [0x30, 0x78, UInt8.ofNat (digitN h), UInt8.ofNat (digitN l)] = some (16 * h + l) :=
  (by decide +kernel : ∀ h l : Fin 16, numVal [0x30, 0x78, UInt8.ofNat (digitN h.val), UInt8.ofNat (digitN l.val)] =
    some (16 * h.val + l.val)) ⟨h, hh⟩ ⟨l, hl⟩

theorem lexLine_elem (f b j rest : Nat) (hj : j < 64) :
    lexLine (f + 2) (textLine (elemN b j rest)) = (lexLine f (textLine rest)).map (elemT (blockByte b j) ++ ·) := by
  rw [text_elem, elemT, blockByte_nibbles b j hj]
  have h1 := nibble_lt b (Nat.sub 127 (Nat.mul 2 j))
  have h2 := nibble_lt b (Nat.sub 126 (Nat.mul 2 j))
  generalize nibble b (Nat.sub 127 (Nat.mul 2 j)) = x at h1 ⊢
  generalize nibble b (Nat.sub 126 (Nat.mul 2 j)) = y at h2 ⊢
  have hs : ∀ r, spanBytes (fun c => isLetter c || isDigit c) (0x30 :: 0x78 :: UInt8.ofNat (digitN x) :: UInt8.ofNat (digitN y) :: 0x2C :: r) =
      ([0x30, 0x78, UInt8.ofNat (digitN x), UInt8.ofNat (digitN y)], 0x2C :: r) := by
    intro r
    simp only [spanBytes, digit_class x h1, digit_class y h2, if_true]
    rfl
  rw [lexLine]
  · rw [if_neg (by decide), if_neg (by decide), if_pos (by decide)]
    simp only [hs, numVal_digits x y h1 h2, Option.bind_some]
    rw [lexLine_comma, Option.map_map]
    rfl
  · intro _ h'
    exact absurd h' (by decide)

theorem lexLine_spaceN (f rest : Nat) : lexLine (f + 1) (textLine (spaceN rest)) = lexLine f (textLine rest) := by
  rw [spaceN, show Nat.add 0x20 (Nat.mul 256 rest) = 0x20 + 256 * rest from rfl, textLine_add _ _ (by decide) (by decide)]
  exact lexLine_space _ _ (.inl rfl) _

/-- The length of a row is not needed: the fuel is at least 25. -/
theorem lexLine_rowN (f b j : Nat) (hj : j + 7 < 64) : lexLine (f + 25) (textLine (rowN b j)) =
    some ((List.range' j 8).flatMap fun i => elemT (blockByte b i)) := by
  rw [rowN, show ∀ x, Nat.add 9 (Nat.mul 256 x) = 9 + 256 * x from fun _ => rfl, textLine_add _ _ (by decide) (by decide),
    lexLine_space _ (UInt8.ofNat 9) (.inr rfl), lexLine_elem _ _ _ _ (by omega), lexLine_spaceN,
    lexLine_elem _ _ (Nat.add j 1) _ (show j + 1 < 64 by omega), lexLine_spaceN,
    lexLine_elem _ _ (Nat.add j 2) _ (show j + 2 < 64 by omega), lexLine_spaceN,
    lexLine_elem _ _ (Nat.add j 3) _ (show j + 3 < 64 by omega), lexLine_spaceN,
    lexLine_elem _ _ (Nat.add j 4) _ (show j + 4 < 64 by omega), lexLine_spaceN,
    lexLine_elem _ _ (Nat.add j 5) _ (show j + 5 < 64 by omega), lexLine_spaceN,
    lexLine_elem _ _ (Nat.add j 6) _ (show j + 6 < 64 by omega), lexLine_spaceN,
    lexLine_elem _ _ (Nat.add j 7) _ (show j + 7 < 64 by omega), textLine_zero]
  rw [lexLine]
  simp only [Option.map_some]
  rfl

theorem rowN_length (b j : Nat) : (textLine (rowN b j)).length = 48 := by
  have hs : ∀ rest, (textLine (spaceN rest)).length = (textLine rest).length + 1 := by
    intro rest
    rw [spaceN, show Nat.add 0x20 (Nat.mul 256 rest) = 0x20 + 256 * rest from rfl, textLine_add _ _ (by decide) (by decide)]
    rfl
  have he : ∀ j rest, (textLine (elemN b j rest)).length = (textLine rest).length + 5 := by
    intro j rest
    rw [text_elem]
    rfl
  rw [rowN, show ∀ x, Nat.add 9 (Nat.mul 256 x) = 9 + 256 * x from fun _ => rfl, textLine_add _ _ (by decide) (by decide)]
  simp only [List.length_cons, he, hs, textLine_zero, List.length_nil]

theorem lexLines_row (b j : Nat) (hj : j + 7 < 64) (ls : List Nat) : lexLines (rowN b j :: ls) =
    (lexLines ls).map (((List.range' j 8).flatMap fun i => elemT (blockByte b i)) ++ ·) := by
  rw [lexLines]
  simp only [rowN_length, show 48 + 1 = 24 + 25 from rfl, lexLine_rowN _ b j hj]
  cases lexLines ls <;> rfl

theorem lexLines_comment (i : Nat) (ls : List Nat) : lexLines (commentN i :: ls) = lexLines ls := by
  rw [lexLines, text_comment]
  simp only [List.length_cons, List.length_nil]
  rw [lexLine_space _ _ (.inr rfl), lexLine]
  rw [if_neg (by decide), if_neg (by decide), if_neg (by decide), if_neg (by decide)]
  cases lexLines ls <;> rfl

theorem lexLines_blocks : ∀ (bs ls ls' : List Nat) (i : Nat), skipBlocks i bs ls = some ls' → lexLines ls =
    (lexLines ls').map ((bs.flatMap fun b => (List.range 64).map (blockByte b)).flatMap elemT ++ ·)
  | [], ls, ls', i, h => by
    simp only [skipBlocks, Option.some.injEq] at h
    subst h
    simp
  | b :: bs, ls, ls', i, h => by
    unfold skipBlocks at h
    split at h
    · rename_i h'; cases h'
    · rename_i h1 c l0 l1 l2 l3 l4 l5 l6 l7 ls h2
      cases h2
      obtain ⟨k, h⟩ := cond_some h
      obtain ⟨k0, h⟩ := cond_some h
      obtain ⟨k1, h⟩ := cond_some h
      obtain ⟨k2, h⟩ := cond_some h
      obtain ⟨k3, h⟩ := cond_some h
      obtain ⟨k4, h⟩ := cond_some h
      obtain ⟨k5, h⟩ := cond_some h
      obtain ⟨k6, h⟩ := cond_some h
      obtain ⟨k7, h⟩ := cond_some h
      have e : ∀ {x y : Nat}, Nat.beq x y = true → x = y := fun h => Nat.eq_of_beq_eq_true h
      rw [e k, e k0, e k1, e k2, e k3, e k4, e k5, e k6, e k7]
      rw [lexLines_comment, lexLines_row _ _ (by decide), lexLines_row _ _ (by decide), lexLines_row _ _ (by decide),
        lexLines_row _ _ (by decide), lexLines_row _ _ (by decide), lexLines_row _ _ (by decide), lexLines_row _ _ (by decide),
        lexLines_row _ _ (by decide), lexLines_blocks bs ls ls' _ h]
      simp only [Option.map_map]
      rfl
    · cases h

theorem lexLines_cons (l : Nat) (ls : List Nat) {ts : List Tok} (h : lexLine ((textLine l).length + 1) (textLine l) = some ts) :
    lexLines (l :: ls) = (lexLines ls).map (withSemicolon ts ++ ·) := by
  rw [lexLines]
  simp only [h]
  cases lexLines ls <;> rfl

theorem lexLines_header {ls ls' : List Nat} (h : afterHeader ls = some ls') : lexLines ls =
    (lexLines ls').map ([.word (name! "package"), .word (name! "charprops"), .op (name! ";"), .word (name! "var"),
      .word (name! "lookupIndices"), .op (name! "="), .op (name! "["), .op (name! "..."), .op (name! "]"), .word (name! "uint8"),
      .op (name! "{")] ++ ·) := by
  unfold afterHeader at h
  split at h
  · obtain ⟨k0, h⟩ := cond_some h
    obtain ⟨k1, h⟩ := cond_some h
    obtain ⟨k2, h⟩ := cond_some h
    obtain ⟨k3, h⟩ := cond_some h
    obtain ⟨k4, h⟩ := cond_some h
    cases h
    have e : ∀ {x y : Nat}, Nat.beq x y = true → x = y := fun h => Nat.eq_of_beq_eq_true h
    rw [e k0, e k1, e k2, e k3, e k4]
    rw [lexLines_cons (ts := []) _ _ (by decide +kernel), lexLines_cons (ts := []) 0 _ (by decide +kernel),
      lexLines_cons (ts := [.word (name! "package"), .word (name! "charprops")]) _ _ (by decide +kernel),
      lexLines_cons (ts := []) 0 _ (by decide +kernel),
      lexLines_cons (ts := [.word (name! "var"), .word (name! "lookupIndices"), .op (name! "="), .op (name! "["), .op (name! "..."),
        .op (name! "]"), .word (name! "uint8"), .op (name! "{")]) _ _ (by decide +kernel)]
    simp only [Option.map_map]
    rfl
  · cases h

theorem lexLines_middle {ls ls' : List Nat} (h : afterMiddle ls = some ls') : lexLines ls =
    (lexLines ls').map ([.op (name! "}"), .op (name! ";"), .word (name! "var"), .word (name! "lookupProps"), .op (name! "="),
      .op (name! "["), .op (name! "..."), .op (name! "]"), .word (name! "CharProperties"), .op (name! "{")] ++ ·) := by
  unfold afterMiddle at h
  split at h
  · obtain ⟨k0, h⟩ := cond_some h
    obtain ⟨k1, h⟩ := cond_some h
    cases h
    have e : ∀ {x y : Nat}, Nat.beq x y = true → x = y := fun h => Nat.eq_of_beq_eq_true h
    rw [e k0, e k1]
    rw [lexLines_cons (ts := [.op (name! "}")]) _ _ (by decide +kernel),
      lexLines_cons (ts := [.word (name! "var"), .word (name! "lookupProps"), .op (name! "="), .op (name! "["), .op (name! "..."),
        .op (name! "]"), .word (name! "CharProperties"), .op (name! "{")]) _ _ (by decide +kernel)]
    simp only [Option.map_map]
    rfl
  · cases h

theorem lexLines_end {ls : List Nat} (h : atEnd ls = true) : lexLines ls = some [.op (name! "}"), .op (name! ";")] := by
  unfold atEnd at h
  split at h
  · rw [Nat.eq_of_beq_eq_true h]
    decide +kernel
  · cases h

/-- The tokens of the file. -/
theorem lexLines_tables : lexLines Text.tableText.flatten = some
    ([.word (name! "package"), .word (name! "charprops"), .op (name! ";"), .word (name! "var"),
      .word (name! "lookupIndices"), .op (name! "="), .op (name! "["), .op (name! "..."), .op (name! "]"), .word (name! "uint8"),
      .op (name! "{")] ++ ((tableList lookupIndices).flatMap elemT ++
    ([.op (name! "}"), .op (name! ";"), .word (name! "var"), .word (name! "lookupProps"), .op (name! "="),
      .op (name! "["), .op (name! "..."), .op (name! "]"), .word (name! "CharProperties"), .op (name! "{")] ++
    ((tableList lookupProps).flatMap elemT ++ [.op (name! "}"), .op (name! ";")])))) := by
  have h := text_checked
  generalize Text.tableText.flatten = ls at h ⊢
  unfold checkText at h
  split at h
  · cases h
  · rename_i l1 h1
    split at h
    · cases h
    · rename_i l2 h2
      split at h
      · cases h
      · rename_i l3 h3
        split at h
        · cases h
        · rename_i l4 h4
          rw [lexLines_header h1, lexLines_blocks _ _ _ _ h2, lexLines_middle h3, lexLines_blocks _ _ _ _ h4, lexLines_end h]
          rfl

theorem parseExprs_elems (ts : List Tok) : ∀ (vs : List UInt8) (f : Nat),
    parseExprs (vs.length + f + 4) (name! "}") (vs.flatMap elemT ++ .op (name! "}") :: ts) = some (literals vs, ts)
  | [], f => by
    rw [parseExprs]
    rfl
  | v :: vs, f => by
    have ih := parseExprs_elems ts vs f
    rw [show (v :: vs).length + f + 4 = (vs.length + f + 4) + 1 by simp only [List.length_cons]; omega, parseExprs]
    simp only [List.flatMap_cons, elemT, List.cons_append, List.nil_append, skipOp]
    rw [show vs.length + f + 4 = (vs.length + f + 1) + 1 + 1 + 1 from rfl, parseExpr, parsePrimary]
    simp only [parseSuffix, parseBin, binOp, Nat.reduceEqDiff, if_false, if_true, Option.bind_eq_bind, Option.bind_some]
    rw [show vs.length + f + 1 + 1 + 1 + 1 = vs.length + f + 4 from rfl]
    simp only [List.flatMap_def] at ih ⊢
    simp [ih, literals]

/-- A declaration `var x = [...]T{…}`. -/
theorem parseDecls_table (x t : Nat) (hx : keywords.contains x = false) (ht : keywords.contains t = false) (vs : List UInt8) (f : Nat)
    (ts : List Tok) : parseDecls (vs.length + f + 8) (.word (name! "var") :: .word x :: .op (name! "=") :: .op (name! "[") ::
      .op (name! "...") :: .op (name! "]") :: .word t :: .op (name! "{") :: (vs.flatMap elemT ++ .op (name! "}") :: .op (name! ";") :: ts)) =
    (parseDecls (vs.length + f + 7) ts).map (.var x (.comp (.array (.name t)) (literals vs)) :: ·) := by
  have ih := parseExprs_elems (.op (name! ";") :: ts) vs (f + 1)
  rw [show vs.length + f + 8 = (vs.length + f + 4) + 1 + 1 + 1 + 1 from rfl, parseDecls]
  rw [show vs.length + (f + 1) + 4 = vs.length + f + 4 + 1 by omega] at ih
  have he : parseExpr (vs.length + f + 4 + 1 + 1 + 1) 1 (.op (name! "[") :: .op (name! "...") :: .op (name! "]") :: .word t ::
      .op (name! "{") :: (vs.flatMap elemT ++ .op (name! "}") :: .op (name! ";") :: ts)) =
      some (.comp (.array (.name t)) (literals vs), .op (name! ";") :: ts) := by
    have ht' : ∀ r, parseTy (vs.length + f + 4 + 1) (.op (name! "[") :: .op (name! "...") :: .op (name! "]") :: .word t :: .op (name! "{") :: r) =
        some (.array (.name t), .op (name! "{") :: r) := by
      intro r
      rw [parseTy]
      simp only [Nat.reduceEqDiff, if_false, if_true, skipOp, Option.bind_eq_bind, Option.bind_some]
      rw [parseTy]
      · simp only [parseName, ht, Bool.false_eq_true, if_false, Option.bind_eq_bind, Option.bind_some, skipOp, Nat.reduceEqDiff]
      · intro _ _ h
        cases h
    have hs : parseSuffix (vs.length + f + 4 + 1) (.comp (.array (.name t)) (literals vs)) (.op (name! ";") :: ts) =
        some (.comp (.array (.name t)) (literals vs), .op (name! ";") :: ts) := by
      rw [parseSuffix]
      simp only [Nat.reduceEqDiff, if_false]
    rw [parseExpr, parsePrimary]
    simp only [Nat.reduceEqDiff, if_false, if_true, ht', Option.bind_eq_bind, Option.bind_some, skipOp, ih, hs]
    rw [parseBin]
    simp only [binOp, Nat.reduceEqDiff, if_false]
  simp only [Nat.reduceEqDiff, if_false, if_true, parseName, hx, Bool.false_eq_true, Option.bind_eq_bind, Option.bind_some, skipOp, he]

theorem parseFile_tables (vi vp : List UInt8) : parseFile
    ([.word (name! "package"), .word (name! "charprops"), .op (name! ";"), .word (name! "var"),
      .word (name! "lookupIndices"), .op (name! "="), .op (name! "["), .op (name! "..."), .op (name! "]"), .word (name! "uint8"),
      .op (name! "{")] ++ (vi.flatMap elemT ++
    ([.op (name! "}"), .op (name! ";"), .word (name! "var"), .word (name! "lookupProps"), .op (name! "="),
      .op (name! "["), .op (name! "..."), .op (name! "]"), .word (name! "CharProperties"), .op (name! "{")] ++
    (vp.flatMap elemT ++ [.op (name! "}"), .op (name! ";")])))) = some { pkg := name! "charprops", imports := [], decls :=
      [.var (name! "lookupIndices") (.comp (.array (.name (name! "uint8"))) (literals vi)),
        .var (name! "lookupProps") (.comp (.array (.name (name! "CharProperties"))) (literals vp))] } := by
  rw [parseFile]
  generalize hf : List.length _ + 1 = f
  obtain ⟨g, rfl⟩ : ∃ g, f = vi.length + (vp.length + g) + 9 := by
    simp only [List.length_cons, List.length_append, List.length_nil] at hf
    have h2 : ∀ l : List UInt8, (l.flatMap elemT).length = 2 * l.length := by
      intro l
      induction l with
      | nil => rfl
      | cons a l ih => simp only [List.flatMap_cons, List.length_append, ih, elemT, List.length_cons, List.length_nil]; omega
    simp only [h2] at hf
    exact ⟨f - 9 - vi.length - vp.length, by omega⟩
  simp only [List.cons_append, List.nil_append, skipWord, if_true, if_false, Nat.reduceEqDiff, Option.bind_eq_bind, Option.bind_some, parseName,
    show keywords.contains (name! "charprops") = false by decide +kernel, Bool.false_eq_true, skipOp]
  rw [show vi.length + (vp.length + g) + 9 = vi.length + (vp.length + g + 1) + 8 by omega,
    parseDecls_table _ _ (by decide +kernel) (by decide +kernel),
    show vi.length + (vp.length + g + 1) + 7 = vp.length + (vi.length + g) + 8 by omega,
    parseDecls_table _ _ (by decide +kernel) (by decide +kernel), parseDecls]
  rfl

theorem parse_of {ls : List Nat} {ts : List Tok} {f : File} (h1 : lexLines ls = some ts) (h2 : parseFile ts = some f) :
    parseSource ls = some f := by
  rw [parseSource, h1, Option.bind_some, h2]

theorem parse_tables : parseSource Text.tableText.flatten = some fileTables :=
  @parse_of _ _ _ lexLines_tables (parseFile_tables (tableList lookupIndices) (tableList lookupProps))

end Textseg.GoLang
