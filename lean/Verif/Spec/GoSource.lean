import Verif.Spec.GenTable
/-!
# Specification: reading Go source text

The lexical rules of the Go specification, as far as a file with tables of numbers needs them: white space, line comments,
identifiers and keywords, hexadecimal integers, some operators, and the automatic insertion of semicolons at the end of a line.
-/

namespace Textseg.Spec

/-- The tokens of Go source text. A keyword is a `word`. -/
inductive Tok where
  | word (name : List UInt8)
  | number (value : Nat)
  | symbol (s : List UInt8)
  /-- written or inserted at the end of a line -/
  | semicolon
deriving DecidableEq, Repr

def isLetter (b : UInt8) : Bool := (0x41 ≤ b && b ≤ 0x5A) || (0x61 ≤ b && b ≤ 0x7A) || b == 0x5F
def isDecimal (b : UInt8) : Bool := 0x30 ≤ b && b ≤ 0x39
/-- Letters and digits: what identifiers and numbers go on with. -/
def isWordByte (b : UInt8) : Bool := isLetter b || isDecimal b

/-- The value of a hexadecimal digit. -/
def hexValue (b : UInt8) : Option Nat :=
  if 0x30 ≤ b ∧ b ≤ 0x39 then some (b.toNat - 0x30)
  else if 0x41 ≤ b ∧ b ≤ 0x46 then some (b.toNat - 0x41 + 10)
  else if 0x61 ≤ b ∧ b ≤ 0x66 then some (b.toNat - 0x61 + 10)
  else none

/-- The value of a sequence of hexadecimal digits, continuing from `acc`. -/
def hexDigitsValue (acc : Nat) : List UInt8 → Option Nat
  | [] => some acc
  | b :: bs => (hexValue b).bind fun d => hexDigitsValue (acc * 16 + d) bs

/-- A literal `0x...` with at least one digit. -/
def numberValue : List UInt8 → Option Nat
  | 0x30 :: 0x78 :: d :: ds => hexDigitsValue 0 (d :: ds)
  | _ => none

/-- The keywords after which no semicolon is inserted (all but break, continue, fallthrough and return). -/
def plainKeywords : List (List UInt8) :=
  ["case", "chan", "const", "default", "defer", "else", "for", "func", "go", "goto", "if", "import", "interface", "map",
   "package", "range", "select", "struct", "switch", "type", "var"].map ascii

/-- The tokens of a text. `operand` says whether a semicolon is to be inserted if the line ends here. `none` if the text is
not of the simple kind described above. (`fuel`: more than the length of the text.) -/
def goLex : (fuel : Nat) → (operand : Bool) → List UInt8 → Option (List Tok)
  | 0, _, _ => none
  | _ + 1, operand, [] => some (if operand then [.semicolon] else [])
  | fuel + 1, operand, b :: rest =>
    if b = 0x0A then (goLex fuel false rest).map fun ts => if operand then .semicolon :: ts else ts
    else if b = 0x20 ∨ b = 0x09 ∨ b = 0x0D then goLex fuel operand rest
    else if b = 0x2F ∧ rest.head? = some 0x2F then goLex fuel operand (rest.dropWhile (· != 0x0A))
    else if isLetter b then
      let w := b :: rest.takeWhile isWordByte
      (goLex fuel (!plainKeywords.contains w) (rest.dropWhile isWordByte)).map (.word w :: ·)
    else if isDecimal b then
      (numberValue (b :: rest.takeWhile isWordByte)).bind fun n =>
        (goLex fuel true (rest.dropWhile isWordByte)).map (.number n :: ·)
    else if b = 0x2E ∧ rest.take 2 = [0x2E, 0x2E] then
      (goLex fuel false (rest.drop 2)).map (.symbol [0x2E, 0x2E, 0x2E] :: ·)
    else if b = 0x3D ∧ rest.head? ≠ some 0x3D then (goLex fuel false rest).map (.symbol [b] :: ·)
    else if b = 0x5B ∨ b = 0x7B ∨ b = 0x2C then (goLex fuel false rest).map (.symbol [b] :: ·)
    else if b = 0x5D ∨ b = 0x7D then (goLex fuel true rest).map (.symbol [b] :: ·)
    else if b = 0x3B then (goLex fuel false rest).map (.semicolon :: ·)
    else none

/-- The tokens of a source file. -/
def goTokens (src : List UInt8) : Option (List Tok) := goLex (src.length + 1) false src

/-- The tokens of `var name = [...]typ{v, v, ..., v,}`. -/
def arrayDeclaration (name typ : String) (values : List Nat) : List Tok :=
  [.word (ascii "var"), .word (ascii name), .symbol (ascii "="), .symbol (ascii "["), .symbol (ascii "..."), .symbol (ascii "]"),
    .word (ascii typ), .symbol (ascii "{")] ++ values.flatMap (fun v => [.number v, .symbol (ascii ",")]) ++
  [.symbol (ascii "}"), .semicolon]

/-- The tokens of a file that declares the two tables. -/
def tableFile (indices props : List Nat) : List Tok :=
  [.word (ascii "package"), .word (ascii "charprops"), .semicolon] ++
    arrayDeclaration "lookupIndices" "uint8" indices ++ arrayDeclaration "lookupProps" "CharProperties" props

end Textseg.Spec
