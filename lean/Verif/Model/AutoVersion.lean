import Verif.Model.Scan
/-!
# Model of autoversion/textseg: which implementation a Go release selects

A Go release 1.N sets the build tags go1.1, go1.2, ..., go1.N. A file is part of the package if its constraint holds.
-/

namespace Textseg

/-- A build constraint. `tag k` is the release tag `go1.k`. -/
inductive Constraint where
  | tag (k : Nat)
  | not (c : Constraint)
  | and (c d : Constraint)
deriving DecidableEq, Repr

/-- Whether a constraint holds for release 1.N (Go documentation of `go build`: "go1.k" from version 1.k on). -/
def Constraint.holds (n : Nat) : Constraint → Bool
  | .tag k => decide (k ≤ n)
  | .not c => !c.holds n
  | .and c d => c.holds n && d.holds n

/-- A file of the package that declares `ScanGraphemeClusters` and `UnicodeMajorVersion`. -/
structure VersionFile where
  /-- the `//go:build` line -/
  goBuild : Constraint
  /-- the `// +build` line (a comma is "and"), for releases before 1.17 -/
  plusBuild : Constraint
  /-- the constant `UnicodeMajorVersion` -/
  unicodeMajorVersion : Nat
deriving DecidableEq, Repr

/-- autoversion/textseg/unicode15.go:1-2, 24: `go1.21 && !go1.27`, version 15 -/
def unicode15 : VersionFile :=
  { goBuild := .and (.tag 21) (.not (.tag 27)), plusBuild := .and (.tag 21) (.not (.tag 27)), unicodeMajorVersion := 15 }

/-- autoversion/textseg/unicode17.go:1-2, 24: `go1.27 && !go1.28`, version 17 -/
def unicode17 : VersionFile :=
  { goBuild := .and (.tag 27) (.not (.tag 28)), plusBuild := .and (.tag 27) (.not (.tag 28)), unicodeMajorVersion := 17 }

/-- The files of autoversion/textseg that declare `ScanGraphemeClusters` (version_agnostic.go and doc.go do not). -/
def versionFiles : List VersionFile := [unicode15, unicode17]

/-- The declarations that are compiled in with release 1.N. -/
def selected (n : Nat) : List VersionFile := versionFiles.filter fun f => f.goBuild.holds n

/-- unicode15.go:16-18 and unicode17.go:16-18: the selected `ScanGraphemeClusters` calls the implementation of the Unicode
version named in its file; `none` if the package does not compile (no or two declarations). The implementation for
Unicode 15 is in another module, not in /repo; it is a parameter here. -/
def autoScan (v15 : List UInt8 → Bool → Go SplitResult) (n : Nat) : Option (List UInt8 → Bool → Go SplitResult) :=
  match selected n with
  | [f] => if f.unicodeMajorVersion = 15 then some v15 else some ScanGraphemeClusters
  | _ => none

end Textseg
