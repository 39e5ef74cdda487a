import Verif.Model.BufioScanner
import Verif.Model.Cost
/-!
# The Scanner, instrumented: calls of `Read`, calls of the split function, property lookups

The same code as in `Model/BufioScanner.lean`, with a further result that counts. `Props/StreamCost.lean` proves that forgetting
the counters gives back the functions of `Model/BufioScanner.lean`.
-/

namespace Textseg

/-- A split function that also says how many property lookups it makes. -/
abbrev SplitFuncC := List UInt8 → Bool → Go (SplitResult × Nat)

/-- How often `Read` and the split function are called, and how many lookups the latter makes. -/
structure Work where
  reads : Nat
  calls : Nat
  lookups : Nat
deriving DecidableEq, Repr

instance : Add Work := ⟨fun a b => ⟨a.reads + b.reads, a.calls + b.calls, a.lookups + b.lookups⟩⟩

namespace Scanner
variable {σ : Type}

/-- `readLoop` with a counter -/
def readLoopC (read : Reader σ) : (left : Nat) → Scanner σ → Scanner σ × Nat
  | 0, s =>
    match readOnce read s with
    | (true, s) => (s, 1)
    | (false, s) => (s.setErr .noProgress, 1)
  | left + 1, s =>
    match readOnce read s with
    | (true, s) => (s, 1)
    | (false, s) =>
      let (s, n) := readLoopC read left s
      (s, n + 1)

/-- `more` with a counter -/
def moreC (read : Reader σ) (maxTokenSize : Nat) (s : Scanner σ) : Go (Option Bool × Scanner σ × Nat) :=
  if s.err ≠ none then .ok (some false, { s with start := 0, stop := 0 }, 0)
  else do
    let w ← s.window
    match (s.shift w).grow maxTokenSize w with
    | none => .ok (some false, (s.shift w).setErr .tooLong, 0)
    | some s =>
      let (s, n) := readLoopC read maxConsecutiveEmptyReads s
      .ok (none, s, n)

/-- `round` with counters -/
def roundC (split : SplitFuncC) (read : Reader σ) (maxTokenSize : Nat) (s : Scanner σ) : Go (Option Bool × Scanner σ × Work) :=
  if s.start < s.stop ∨ s.err ≠ none then do
    let w ← s.window
    let (r, k) ← split w (s.err != none)
    match r.err with
    | some e =>
      if e = "final token" then .ok (some (r.token != none), { s with token := r.token, done := true }, ⟨0, 1, k⟩)
      else .ok (some false, s.setErr (.other e), ⟨0, 1, k⟩)
    | none =>
      if s.stop - s.start < r.advance then .ok (some false, s.setErr .advanceTooFar, ⟨0, 1, k⟩)
      else
        let s := { s with start := s.start + r.advance, token := r.token }
        match r.token with
        | some _ =>
          if s.err = none ∨ 0 < r.advance then .ok (some true, { s with empties := 0 }, ⟨0, 1, k⟩)
          else if maxConsecutiveEmptyReads < s.empties + 1 then
            .error (.explicit "bufio.Scan: too many empty tokens without progressing")
          else .ok (some true, { s with empties := s.empties + 1 }, ⟨0, 1, k⟩)
        | none => do
          let (o, s, n) ← moreC read maxTokenSize s
          .ok (o, s, ⟨n, 1, k⟩)
  else do
    let (o, s, n) ← moreC read maxTokenSize s
    .ok (o, s, ⟨n, 0, 0⟩)

/-- `loop` with counters -/
def loopC (split : SplitFuncC) (read : Reader σ) (maxTokenSize : Nat) : (fuel : Nat) → Scanner σ → Go (Bool × Scanner σ × Work)
  | 0, _ => .error .outOfFuel
  | fuel + 1, s => do
    match ← roundC split read maxTokenSize s with
    | (some b, s, w) => .ok (b, s, w)
    | (none, s, w) => do
      let (b, s, w') ← loopC split read maxTokenSize fuel s
      .ok (b, s, w + w')

/-- `Scan` with counters -/
def ScanC (split : SplitFuncC) (read : Reader σ) (maxTokenSize : Nat) (s : Scanner σ) : Go (Bool × Scanner σ × Work) :=
  if s.done then .ok (false, s, ⟨0, 0, 0⟩)
  else loopC split read maxTokenSize (max s.buf.length maxTokenSize + 2) s

/-- `collect` with counters -/
def collectC (split : SplitFuncC) (read : Reader σ) (maxTokenSize : Nat) :
    (fuel : Nat) → Scanner σ → Go (List (List UInt8) × Option IOErr × Work)
  | 0, _ => .error .outOfFuel
  | fuel + 1, s => do
    match ← s.ScanC split read maxTokenSize with
    | (true, s, w) => do
      let (toks, e, w') ← collectC split read maxTokenSize fuel s
      .ok ((s.Bytes.getD []) :: toks, e, w + w')
    | (false, s, w) => .ok ([], s.Err, w)

end Scanner
end Textseg
