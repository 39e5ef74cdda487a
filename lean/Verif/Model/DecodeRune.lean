import Verif.Model.GoBytes
/-!
# Model of `utf8.DecodeRune`

The function of the Go standard library that grapheme_clusters_test.go:50 and 113 call, that `[]rune(s)` and `for range s`
are defined by, and that every Go program uses to look into a token. It is not part of /repo; it is transcribed from knowledge of
the standard library (unicode/utf8/utf8.go) and belongs to the trusted base (DESIGN.md). Simplification: a rune is a natural
number (the results are never negative), and the table `first` is given by its ranges.
-/

namespace Textseg

/-- `utf8.RuneError` -/
def RuneError : Nat := 0xFFFD

/-- The tables `first` and `acceptRanges` of unicode/utf8 for a byte that is not ASCII: the size of the sequence and the
range of its second byte; `none` for `xx` (invalid). -/
def decodeFirst (p0 : UInt8) : Option (Nat × UInt8 × UInt8) :=
  if p0 < 0xC2 then none
  else if p0 ≤ 0xDF then some (2, 0x80, 0xBF)
  else if p0 = 0xE0 then some (3, 0xA0, 0xBF)
  else if p0 = 0xED then some (3, 0x80, 0x9F)
  else if p0 ≤ 0xEF then some (3, 0x80, 0xBF)
  else if p0 = 0xF0 then some (4, 0x90, 0xBF)
  else if p0 ≤ 0xF3 then some (4, 0x80, 0xBF)
  else if p0 = 0xF4 then some (4, 0x80, 0x8F)
  else none

/-- `utf8.DecodeRune(p)`: the rune and its width in bytes. -/
def DecodeRune (p : List UInt8) : Nat × Nat :=
  match p with
  | [] => (RuneError, 0)
  | p0 :: rest =>
    if p0 < 0x80 then (p0.toNat, 1)
    else
      match decodeFirst p0 with
      | none => (RuneError, 1)
      | some (sz, lo, hi) =>
        if p.length < sz then (RuneError, 1)
        else
          let b1 := rest.getD 0 0
          if b1 < lo || hi < b1 then (RuneError, 1)
          else if sz ≤ 2 then (((p0 &&& 0x1F).toNat <<< 6) ||| (b1 &&& 0x3F).toNat, 2)
          else
            let b2 := rest.getD 1 0
            if b2 < 0x80 || 0xBF < b2 then (RuneError, 1)
            else if sz ≤ 3 then
              (((p0 &&& 0x0F).toNat <<< 12) ||| ((b1 &&& 0x3F).toNat <<< 6) ||| (b2 &&& 0x3F).toNat, 3)
            else
              let b3 := rest.getD 2 0
              if b3 < 0x80 || 0xBF < b3 then (RuneError, 1)
              else
                (((p0 &&& 0x07).toNat <<< 18) ||| ((b1 &&& 0x3F).toNat <<< 12) ||| ((b2 &&& 0x3F).toNat <<< 6) |||
                  (b3 &&& 0x3F).toNat, 4)

/-- The loop `for len(buf) > 0 { r, size := utf8.DecodeRune(buf); …; buf = buf[size:] }`: the runes and their widths. -/
def runesLoop : (fuel : Nat) → List UInt8 → Go (List (Nat × Nat))
  | 0, _ => .error .outOfFuel
  | fuel + 1, buf =>
    if buf.length = 0 then .ok []
    else do
      let (r, size) := DecodeRune buf
      let buf ← goSliceFrom buf size
      let rest ← runesLoop fuel buf
      .ok ((r, size) :: rest)

/-- The runes of a byte string and their widths (`for i, r := range string(buf)`). -/
def runes (buf : List UInt8) : Go (List (Nat × Nat)) := runesLoop (buf.length + 1) buf

end Textseg
