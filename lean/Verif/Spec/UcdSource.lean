import Verif.Spec.GenSource
import Verif.Model.UCDParse
/-!
# What the source text of the parsers means: what a machine does when a reader is read

The interpreter (`GoMem/Eval.lean`) does not execute `bufio.Scanner`; a `Machine` says what the calls of `Scan` return. Here: that it
says what the model of `bufio.Scanner` (`Model/BufioScanner.lean`, with the split function `bufio.ScanLines`) does.
-/

namespace Textseg.Spec
open Textseg GoMem

/-- The result of call number `k` of `s.Scan()`, where the first call has the number 0. -/
def scanResult {σ : Type} (read : Reader σ) : Scanner σ → (k : Nat) → Go (Bool × Scanner σ)
  | s, 0 => s.Scan ScanLines read maxScanTokenSize
  | s, k + 1 => do
    let (_, s) ← s.Scan ScanLines read maxScanTokenSize
    scanResult read s k

/-- On the machine `m`, from call number `pos` on the calls of `Scan` on a Scanner over reader number `id` return what the calls on `s`
return: true, with a line, or false; and then `Err` returns what it returns. -/
structure Scans {σ : Type} (m : Machine) (id pos : Nat) (read : Reader σ) (s : Scanner σ) : Prop where
  lines : ∀ k, m.lines id (pos + k) = (scanResult read s k).map fun r => if r.1 then some (r.2.Bytes.getD []) else none
  err : ∀ k r, scanResult read s k = .ok r → m.scanErr id (pos + k + 1) = r.2.Err

/-- What a caller sees of an `Entry`: `e.Start`, `e.End`, `e.FirstField()` and `slices.Collect(e.AllFields())`. -/
structure Seen where
  Start : Int32
  End : Int32
  first : GoString
  all : List GoString

/-- What a caller sees of an entry of the model. -/
structure SeenOf (s : Seen) (e : Entry) : Prop where
  start : s.Start = e.Start
  stop : s.End = e.End
  first : s.first = firstString e.Fields
  all : allFields e.Fields = .ok s.all

/-- The strings in a slice of strings. -/
def stringsOf : List Val → Option (List GoString)
  | [] => some []
  | .str s :: vs => (stringsOf vs).map (s :: ·)
  | _ => none

/-- Looks at an `Entry`. `c` is the context of the caller. -/
def look (c : Ctx) (call : Ref → M (List Val)) (v : Val) : M Seen := do
  let start ← fieldOf v (name! "Start")
  let stop ← fieldOf v (name! "End")
  let first ← call (.method v (name! "FirstField") [])
  let it ← call (.method v (name! "AllFields") [])
  let it ← single it
  let all ← collectOf c it
  match start, stop, first, all with
  | .rune _ a, .rune _ b, [.str f], [.slice _ .str s] => do
    let vs ← readSlice s
    match stringsOf vs with
    | some all => pure ⟨a, b, f, all⟩
    | none => stuck
  | _, _, _, _ => stuck

/-- `for { e, err := sc.NextEntry(); if err != nil { break }; look at e }`, at most `k` iterations: what has been seen, and the error. -/
def lookAll (c : Ctx) (call : Ref → M (List Val)) (sc : Val) : (k : Nat) → M (List Seen × GoErr)
  | 0 => halt .bound
  | k + 1 => do
    match ← call (.method sc (name! "NextEntry") []) with
    | [v, .err none] => do
      let s ← look c call v
      let (ss, e) ← lookAll c call sc k
      pure (s :: ss, e)
    | [_, .err (some e)] => pure ([], e)
    | _ => stuck

/-- The program is initialised, from an empty memory; then `sc := ucdparse.NewScanner(r)`, for reader number `id`, and the loop. -/
def ucdSession (prog : Program) (m : Machine) (L depth id : Nat) : M (List Seen × GoErr) := do
  let vars ← initFiles prog m L depth prog []
  let call := run prog m vars L depth
  let vs ← call (.func (name! "ucdparse") (name! "NewScanner") [.reader id])
  let sc ← single vs
  lookAll (mkCtx prog m call 0 []) call sc L

/-- The error that a Go caller sees: an error of the reader (or `io.EOF`) as it is, or one made by `fmt.Errorf`, with a text about the text
that is not a number. -/
def parseError (m : Machine) : ParseErr → GoErr
  | .io e => .io e
  | .invalidStart s => .text (m.sprintf [.str (str "invalid start of character range %q: %s"), .str s, .err (some .syntax)])
  | .invalidEnd s => .text (m.sprintf [.str (str "invalid end of character range %q: %s"), .str s, .err (some .syntax)])
  | .invalidChar s => .text (m.sprintf [.str (str "invalid character reference %q"), .str s])

/-- The loop over the reader `id` sees these entries and then this error, with all sufficiently large bounds on the number of
iterations and the depth of calls. -/
def UcdSees (prog : Program) (m : Machine) (id : Nat) (ss : List Seen) (e : GoErr) : Prop :=
  ∃ b, ∀ L depth, b ≤ L → b ≤ depth → ∃ h, ucdSession prog m L depth id [] = .ok ((ss, e), h)

/-- The loop over the reader `id` panics. -/
def UcdPanics (prog : Program) (m : Machine) (id : Nat) (p : GoPanic) : Prop :=
  ∃ b, ∀ L depth, b ≤ L → b ≤ depth → ucdSession prog m L depth id [] = .error (.panic p)

end Textseg.Spec
