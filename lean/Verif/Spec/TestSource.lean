import Verif.Spec.UcdSource
/-!
# What the source text of the parser of GraphemeBreakTest.txt means

The calls of a caller of `ucdparse.TestDataScanner`, executed by the interpreter (`GoMem/Eval.lean`). The caller keeps the entries, and looks
at their bytes only when all lines have been read.
-/

namespace Textseg.Spec
open Textseg GoMem

/-- What a caller sees of a `TestDataEntry`; `none` is a nil slice. -/
structure TestSeen where
  Input : Option (List UInt8)
  WantSegments : Option (List (Option (List UInt8)))

/-- A slice that is nil if it would have no elements. -/
def nilIfEmpty {α : Type} (l : List α) : Option (List α) := if l.isEmpty then none else some l

/-- What is seen of an entry with this text and these segments. -/
def testSeen (input : List UInt8) (segs : List (List UInt8)) : TestSeen := ⟨nilIfEmpty input, nilIfEmpty (segs.map nilIfEmpty)⟩

/-- Looks at a slice of bytes. -/
def seeBytes : Val → M (Option (List UInt8))
  | .slice _ _ none => pure none
  | .slice _ _ (some s) => do
    let vs ← readSlice (some s)
    match bytesOf vs with
    | some bs => pure (some bs)
    | none => stuck
  | _ => stuck

/-- Looks at slices of bytes. -/
def seeAllBytes : List Val → M (List (Option (List UInt8)))
  | [] => pure []
  | v :: vs => do
    let x ← seeBytes v
    let xs ← seeAllBytes vs
    pure (x :: xs)

/-- Looks at a `TestDataEntry`. -/
def seeTest (v : Val) : M TestSeen := do
  let input ← fieldOf v (name! "Input")
  let want ← fieldOf v (name! "WantSegments")
  let input ← seeBytes input
  match want with
  | .slice _ _ none => pure ⟨input, none⟩
  | .slice _ _ (some s) => do
    let vs ← readSlice (some s)
    let ws ← seeAllBytes vs
    pure ⟨input, some ws⟩
  | _ => stuck

/-- Looks at the entries, one after the other. -/
def seeTests : List Val → M (List TestSeen)
  | [] => pure []
  | v :: vs => do
    let x ← seeTest v
    let xs ← seeTests vs
    pure (x :: xs)

/-- `for { e, err := sc.NextEntry(); if err != nil { break }; tests = append(tests, e) }`, at most `k` iterations: the entries, and the
error. -/
def takeTests (call : Ref → M (List Val)) (sc : Val) : (k : Nat) → M (List Val × GoErr)
  | 0 => halt .bound
  | k + 1 => do
    match ← call (.method sc (name! "NextEntry") []) with
    | [v, .err none] => do
      let (vs, e) ← takeTests call sc k
      pure (v :: vs, e)
    | [_, .err (some e)] => pure ([], e)
    | _ => stuck

/-- The program is initialised, from an empty memory; then `sc := ucdparse.NewTestDataScanner(r)`, for reader number `id`, and the loop;
then the entries are looked at. -/
def testSession (prog : Program) (m : Machine) (L depth id : Nat) : M (List TestSeen × GoErr) := do
  let vars ← initFiles prog m L depth prog []
  let call := run prog m vars L depth
  let vs ← call (.func (name! "ucdparse") (name! "NewTestDataScanner") [.reader id])
  let sc ← single vs
  let (vs, e) ← takeTests call sc L
  let ts ← seeTests vs
  pure (ts, e)

/-- The error that a Go caller sees: an error of the reader (or `io.EOF`) as it is, or the result of
`fmt.Errorf("invalid character reference %q", …)`. -/
def TestError (m : Machine) : ParseErr → GoErr → Prop
  | .io e, v => v = .io e
  | .invalidChar s, v => v = .text (m.sprintf [.str (str "invalid character reference %q"), .str s])
  | _, _ => False

/-- The caller sees these entries, and such an error, with all sufficiently large bounds on the number of iterations and the depth of
calls. -/
def TestSees (prog : Program) (m : Machine) (id : Nat) (ts : List TestSeen) (err : GoErr → Prop) : Prop :=
  ∃ b, ∀ L depth, b ≤ L → b ≤ depth → ∃ e h, testSession prog m L depth id [] = .ok ((ts, e), h) ∧ err e

/-- The loop over the reader `id` panics. -/
def TestPanics (prog : Program) (m : Machine) (id : Nat) (p : GoPanic) : Prop :=
  ∃ b, ∀ L depth, b ≤ L → b ≤ depth → testSession prog m L depth id [] = .error (.panic p)

end Textseg.Spec
