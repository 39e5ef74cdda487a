import Verif.Model.DecodeRune
/-!
# Model of `bytes.TrimSpace`, statement by statement

The parsers call `bytes.TrimSpace` (textseg/internal/charprops/ucdparse/ucd_scan.go:36, 37, 83, 97 and testdata_scan.go:32, 43).
`Model/GoBytes.lean` has a
simplified `TrimSpace`, which the models of the parsers use; this file transcribes the code of the standard library
(bytes/bytes.go, unicode/utf8/utf8.go, unicode/graphic.go): a fast path for ASCII, and decoding of characters from the front and
from the end otherwise. `Proofs/TrimSpace.lean` proves that the two agree, so the simplification need not be trusted.
The code is not part of /repo.
-/

namespace Textseg

/-- `unicode.IsSpace(r)`: a switch for Latin-1, the table `White_Space` above it. -/
def IsSpace (r : Nat) : Bool :=
  if r ≤ 0xFF then
    r == 0x09 || r == 0x0A || r == 0x0B || r == 0x0C || r == 0x0D || r == 0x20 || r == 0x85 || r == 0xA0
  else
    r == 0x1680 || (0x2000 ≤ r && r ≤ 0x200A) || (0x2028 ≤ r && r ≤ 0x2029) || r == 0x202F || r == 0x205F || r == 0x3000

/-- `asciiSpace[c] != 0` (bytes/bytes.go), for `c < 0x80` -/
def asciiSpace (c : UInt8) : Bool :=
  c == 0x09 || c == 0x0A || c == 0x0B || c == 0x0C || c == 0x0D || c == 0x20

/-- `utf8.RuneStart(b)`: `b&0xC0 != 0x80` -/
def RuneStart (b : UInt8) : Bool := b &&& 0xC0 != 0x80

/-- The loop `for start--; start >= lim; start-- { if RuneStart(p[start]) { break } }` of `utf8.DecodeLastRune`, after the first
`start--`. -/
def lastRuneLoop (p : List UInt8) (lim : Int) : (fuel : Nat) → (start : Int) → Go Int
  | 0, _ => .error .outOfFuel
  | fuel + 1, start =>
    if lim ≤ start then do
      let b ← goIndex p start.toNat
      if RuneStart b then .ok start else lastRuneLoop p lim fuel (start - 1)
    else .ok start

/-- `utf8.DecodeLastRune(p)` -/
def DecodeLastRune (p : List UInt8) : Go (Nat × Nat) :=
  let end_ := p.length
  if end_ = 0 then .ok (RuneError, 0)
  else do
    let start : Int := (end_ : Int) - 1
    let r ← goIndex p start.toNat
    if r < 0x80 then .ok (r.toNat, 1)
    else
      let lim : Int := (end_ : Int) - 4
      let lim := if lim < 0 then 0 else lim
      let start ← lastRuneLoop p lim 5 (start - 1)
      let start := if start < 0 then 0 else start
      let q ← goSliceFrom p start.toNat
      let (r, size) := DecodeRune q
      if start + size ≠ end_ then .ok (RuneError, 1) else .ok (r, size)

/-- The loop of `indexFunc(s, unicode.IsSpace, false)`; -1 if there is no such index. -/
def indexFunc (s : List UInt8) : (fuel : Nat) → (start : Nat) → Go Int
  | 0, _ => .error .outOfFuel
  | fuel + 1, start =>
    if start < s.length then do
      let c ← goIndex s start
      let q ← goSliceFrom s start
      let (r, wid) := if 0x80 ≤ c then DecodeRune q else (c.toNat, 1)
      if IsSpace r = false then .ok start else indexFunc s fuel (start + wid)
    else .ok (-1)

/-- The loop of `lastIndexFunc(s, unicode.IsSpace, false)`; -1 if there is no such index. -/
def lastIndexFunc (s : List UInt8) : (fuel : Nat) → (i : Nat) → Go Int
  | 0, _ => .error .outOfFuel
  | fuel + 1, i =>
    if 0 < i then do
      let c ← goIndex s (i - 1)
      let p ← goSliceTo s i
      let (r, size) ← if 0x80 ≤ c then DecodeLastRune p else .ok (c.toNat, 1)
      if IsSpace r = false then .ok ((i : Int) - size) else lastIndexFunc s fuel (i - size)
    else .ok (-1)

/-- `bytes.TrimLeftFunc(s, unicode.IsSpace)` -/
def TrimLeftFunc (s : List UInt8) : Go (List UInt8) := do
  let i ← indexFunc s (s.length + 1) 0
  if i = -1 then .ok [] else goSliceFrom s i.toNat

/-- `bytes.TrimRightFunc(s, unicode.IsSpace)` -/
def TrimRightFunc (s : List UInt8) : Go (List UInt8) := do
  let i ← lastIndexFunc s (s.length + 1) s.length
  if 0 ≤ i then
    let c ← goIndex s i.toNat
    if 0x80 ≤ c then
      let q ← goSliceFrom s i.toNat
      goSliceTo s (i + (DecodeRune q).2).toNat
    else goSliceTo s (i + 1).toNat
  else goSliceTo s (i + 1).toNat

/-- `bytes.TrimFunc(s, unicode.IsSpace)` -/
def TrimFunc (s : List UInt8) : Go (List UInt8) := do
  let t ← TrimLeftFunc s
  TrimRightFunc t

/-- The second loop of `bytes.TrimSpace` and what follows it. -/
def trimSpaceStop (s : List UInt8) (start : Nat) : (stop : Nat) → Go (List UInt8)
  | 0 => .ok []
  | stop + 1 =>
    if start < stop + 1 then do
      let c ← goIndex s stop
      if 0x80 ≤ c then do
        let t ← goSliceTo s (stop + 1)
        let t ← goSliceFrom t start
        TrimFunc t
      else if asciiSpace c then trimSpaceStop s start stop
      else do
        let t ← goSliceTo s (stop + 1)
        goSliceFrom t start
    else .ok []

/-- The first loop of `bytes.TrimSpace` and what follows it. -/
def trimSpaceStart (s : List UInt8) : (fuel : Nat) → (start : Nat) → Go (List UInt8)
  | 0, _ => .error .outOfFuel
  | fuel + 1, start =>
    if start < s.length then do
      let c ← goIndex s start
      if 0x80 ≤ c then do
        let t ← goSliceFrom s start
        TrimFunc t
      else if asciiSpace c then trimSpaceStart s fuel (start + 1)
      else trimSpaceStop s start s.length
    else trimSpaceStop s start s.length

/-- `bytes.TrimSpace(s)` (a nil slice is `[]`) -/
def goTrimSpace (s : List UInt8) : Go (List UInt8) := trimSpaceStart s (s.length + 1) 0

end Textseg
