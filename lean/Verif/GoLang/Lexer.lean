import Verif.GoLang.Syntax
/-!
# Tokens of Go

The lexical elements of go.dev/ref/spec, as far as the files use them: identifiers, integer literals, interpreted string literals
with the escapes `\n`, `\t`, `\\` and `\"`, ASCII characters without escapes (as integers), operators, `//` comments and the
semicolons that are inserted at the end of a line. Anything else (`/* */`, raw strings, other escapes, floating-point numbers) is
an error.
-/

namespace Textseg.GoLang
open Textseg

inductive Tok where
  /-- an identifier or keyword -/
  | word (x : Nat)
  | num (n : Nat)
  | str (n : Nat)
  /-- an operator or a punctuation mark; a semicolon may be written or inserted -/
  | op (x : Nat)
deriving DecidableEq, Repr

/-- The number of a word (`Model/Text.lean`). -/
def encode (bs : List UInt8) : Nat := bs.foldr (fun b n => b.toNat + 256 * n) 0

def isLetter (b : UInt8) : Bool := (0x41 ≤ b && b ≤ 0x5A) || (0x61 ≤ b && b ≤ 0x7A) || b == 0x5F
def isDigit (b : UInt8) : Bool := 0x30 ≤ b && b ≤ 0x39

/-- The value of a digit in a base up to 16. -/
def digitVal (base : Nat) (b : UInt8) : Option Nat :=
  let v := if isDigit b then b.toNat - 0x30
    else if 0x61 ≤ b && b ≤ 0x66 then b.toNat - 0x61 + 10
    else if 0x41 ≤ b && b ≤ 0x46 then b.toNat - 0x41 + 10 else 99
  if v < base then some v else none

def digitsVal (base : Nat) (acc : Nat) : List UInt8 → Option Nat
  | [] => some acc
  | b :: bs => (digitVal base b).bind fun v => digitsVal base (acc * base + v) bs

/-- The value of an integer literal: `0x…`, `0b…`, `0` or decimal without leading zeros. -/
def numVal : List UInt8 → Option Nat
  | [] => none
  | [0x30] => some 0
  | 0x30 :: 0x78 :: d :: ds => digitsVal 16 0 (d :: ds)
  | 0x30 :: 0x62 :: d :: ds => digitsVal 2 0 (d :: ds)
  | 0x30 :: _ => none
  | ds => digitsVal 10 0 ds

/-- The first bytes that satisfy `p`, and the rest. -/
def spanBytes (p : UInt8 → Bool) : List UInt8 → List UInt8 × List UInt8
  | [] => ([], [])
  | b :: bs => if p b then let (l, r) := spanBytes p bs; (b :: l, r) else ([], b :: bs)

def ops3 : List Nat := [name! "...", name! "<<=", name! ">>=", name! "&^="]
def ops2 : List Nat := [name! ":=", name! "==", name! "!=", name! "<=", name! ">=", name! "&&", name! "||", name! "<<", name! ">>",
  name! "++", name! "--", name! "+=", name! "-=", name! "*=", name! "/=", name! "%=", name! "&=", name! "|=", name! "^=", name! "&^",
  name! "<-"]
def ops1 : List Nat := [name! "+", name! "-", name! "*", name! "/", name! "%", name! "&", name! "|", name! "^", name! "<", name! ">",
  name! "=", name! "!", name! "(", name! ")", name! "[", name! "]", name! "{", name! "}", name! ",", name! ".", name! ":", name! ";"]

/-- The longest operator at the beginning, and the rest. -/
def lexOp (bs : List UInt8) : Option (Nat × List UInt8) :=
  let n3 := encode (bs.take 3)
  let n2 := encode (bs.take 2)
  let n1 := encode (bs.take 1)
  if 3 ≤ bs.length && ops3.contains n3 then some (n3, bs.drop 3)
  else if 2 ≤ bs.length && ops2.contains n2 then some (n2, bs.drop 2)
  else if ops1.contains n1 then some (n1, bs.drop 1)
  else none

/-- The value of an interpreted string literal, after the opening quote, and what follows it. -/
def lexStr : List UInt8 → Option (List UInt8 × List UInt8)
  | [] => none
  | b :: bs =>
    if b == 0x22 then some ([], bs)
    else if b == 0x5C then
      match bs with
      | [] => none
      | c :: bs =>
        let v := if c == 0x6E then some 0x0A else if c == 0x74 then some 0x09 else if c == 0x5C || c == 0x22 then some c else none
        v.bind fun v => (lexStr bs).map fun (w, rest) => (v :: w, rest)
    else (lexStr bs).map fun (w, rest) => (b :: w, rest)

/-- The value of a character literal, after the opening quote, and what follows it. -/
def lexChar : List UInt8 → Option (Nat × List UInt8)
  | c :: q :: rest => if q == 0x27 && c != 0x27 && c != 0x5C && c < 0x80 then some (c.toNat, rest) else none
  | _ => none

/-- The tokens of a line. -/
def lexLine : (fuel : Nat) → List UInt8 → Option (List Tok)
  | 0, _ => none
  | _ + 1, [] => some []
  | fuel + 1, b :: bs =>
    if b == 0x20 || b == 0x09 || b == 0x0D then lexLine fuel bs
    else if isLetter b then
      let (w, rest) := spanBytes (fun c => isLetter c || isDigit c) (b :: bs)
      (lexLine fuel rest).map (.word (encode w) :: ·)
    else if isDigit b then
      let (w, rest) := spanBytes (fun c => isLetter c || isDigit c) (b :: bs)
      (numVal w).bind fun n => (lexLine fuel rest).map (.num n :: ·)
    else if b == 0x22 then
      (lexStr bs).bind fun (w, rest) => (lexLine fuel rest).map (.str (encode w) :: ·)
    else if b == 0x27 then
      (lexChar bs).bind fun (c, rest) => (lexLine fuel rest).map (.num c :: ·)
    else match b, bs with
      | 0x2F, 0x2F :: _ => some []
      | _, _ => (lexOp (b :: bs)).bind fun (n, rest) => (lexLine fuel rest).map (.op n :: ·)

def keywords : List Nat := [name! "break", name! "case", name! "chan", name! "const", name! "continue", name! "default", name! "defer",
  name! "else", name! "fallthrough", name! "for", name! "func", name! "go", name! "goto", name! "if", name! "import",
  name! "interface", name! "map", name! "package", name! "range", name! "return", name! "select", name! "struct", name! "switch",
  name! "type", name! "var"]

/-- Whether a semicolon is inserted if the line ends with this token (go.dev/ref/spec#Semicolons). -/
def endsStatement : Tok → Bool
  | .word x => !keywords.contains x ||
      [name! "break", name! "continue", name! "fallthrough", name! "return"].contains x
  | .num _ => true
  | .str _ => true
  | .op x => [name! "++", name! "--", name! ")", name! "]", name! "}"].contains x

def withSemicolon (ts : List Tok) : List Tok :=
  match ts.getLast? with
  | some t => if endsStatement t then ts ++ [.op (name! ";")] else ts
  | none => ts

/-- The tokens of a file, given its lines. -/
def lexLines : List Nat → Option (List Tok)
  | [] => some []
  | l :: ls => do
    let bs := textLine l
    let ts ← lexLine (bs.length + 1) bs
    let rest ← lexLines ls
    some (withSemicolon ts ++ rest)

end Textseg.GoLang
