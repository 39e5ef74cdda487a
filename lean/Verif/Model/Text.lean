import Lean.Elab.Term
/-!
# Texts of files, embedded as numbers

The modules in `Verif/Text/` contain the lines of some files of /repo, literally. In order that the kernel can compute with
them, a line is a number: its bytes are the digits in base 256, the first byte being the lowest digit. `text! "..."` is that
number (it is computed while the module is read; the theorems are about the number). `tools/check_text.sh` prints the bytes that
the numbers stand for and compares them with the files in /repo.
-/

namespace Textseg

/-- The bytes of a number (up to the highest one that is not zero), lowest first. -/
def bytesLE : (fuel : Nat) → Nat → List UInt8
  | 0, _ => []
  | fuel + 1, n => if n = 0 then [] else UInt8.ofNat (n % 256) :: bytesLE fuel (n / 256)

/-- The bytes of a line. -/
def textLine (n : Nat) : List UInt8 := bytesLE n n

/-- The bytes of a file that consists of these lines, each ended by a newline. -/
def textFile (lines : List Nat) : List UInt8 := lines.flatMap fun n => textLine n ++ [0x0A]

open Lean Elab Term in
/-- The number of a line. -/
elab "text! " s:str : term => do
  let bytes := s.getString.toUTF8.data
  return mkRawNatLit (bytes.foldr (fun b n => b.toNat + 256 * n) 0)

example : textLine (text! "") = [] := rfl
example : textLine (text! "a÷\t") = [0x61, 0xC3, 0xB7, 0x09] := by decide +kernel

end Textseg
