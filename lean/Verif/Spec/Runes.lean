import Verif.Spec.Bytes
/-!
# Specification: the characters that Go sees in a byte string
-/

namespace Textseg.Spec

/-- `GoChars data rs`: reading `data` from left to right, a character in UTF-8 at the front is that character; if there is none,
the first byte is taken alone and stands for U+FFFD (the Go specification: "If the iteration encounters an invalid UTF-8
sequence, the second value will be 0xFFFD, the Unicode replacement character, and the next iteration will advance a single
byte"). `rs` are the characters, each with the bytes it stands for. -/
inductive GoChars : List UInt8 → List (Char × List UInt8) → Prop
  | nil : GoChars [] []
  | char (c : Char) (rest : List UInt8) (rs : List (Char × List UInt8)) :
      GoChars rest rs → GoChars (utf8 [c] ++ rest) ((c, utf8 [c]) :: rs)
  | bad (b : UInt8) (rest : List UInt8) (rs : List (Char × List UInt8)) :
      (¬ ∃ c rest', b :: rest = utf8 [c] ++ rest') → GoChars rest rs → GoChars (b :: rest) (('\uFFFD', [b]) :: rs)

/-- UTF-8: the encoding of a text. -/
def ValidUTF8 (data : List UInt8) : Prop := ∃ cs, data = utf8 cs

end Textseg.Spec
