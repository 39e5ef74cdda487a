import Verif.Spec.AutoSource
/-!
# The files of autoversion/textseg, as the parser reads them
-/

namespace Textseg.Auto
open Textseg GoLang Spec
open Textseg.GoLang.Pkg (compiled releaseTag package afterPrefix)

def bytesTy : Pkg.Ty := .slice (.name (name! "byte"))

/-- autoversion/textseg/doc.go -/
def fileDoc : Pkg.File := ⟨none, [], name! "textseg", [], []⟩

/-- `ScanGraphemeClusters` in unicode15.go and unicode17.go -/
def scanDecl (pkg : Nat) : Pkg.Decl := .forward ⟨name! "ScanGraphemeClusters", [(name! "data", bytesTy), (name! "atEOF", .name (name! "bool"))],
  [.name (name! "int"), bytesTy, .name (name! "error")], pkg, name! "ScanGraphemeClusters", [name! "data", name! "atEOF"]⟩

/-- The constraint of a file: from the release `a` on, before the release `b`. -/
def between (a b : String) : Pkg.Constraint := .and (.tag (str a)) (.not (.tag (str b)))

/-- autoversion/textseg/unicode15.go -/
def file15 : Pkg.File := ⟨some (between "go1.21" "go1.27"), [between "go1.21" "go1.27"], name! "textseg", [⟨some (name! "v15"), pathV15⟩],
  [scanDecl (name! "v15"), .const (name! "UnicodeMajorVersion") 15]⟩

/-- autoversion/textseg/unicode17.go -/
def file17 : Pkg.File := ⟨some (between "go1.27" "go1.28"), [between "go1.27" "go1.28"], name! "textseg", [⟨some (name! "v17"), pathV17⟩],
  [scanDecl (name! "v17"), .const (name! "UnicodeMajorVersion") 17]⟩

/-- autoversion/textseg/version_agnostic.go -/
def fileAgnostic : Pkg.File := ⟨none, [], name! "textseg", [⟨none, name! "bufio"⟩, ⟨some (name! "realImpl"), pathV15⟩],
  [.forward ⟨name! "ScanUTF8Sequences", [(name! "data", bytesTy), (name! "atEOF", .name (name! "bool"))],
      [.name (name! "int"), bytesTy, .name (name! "error")], name! "realImpl", name! "ScanUTF8Sequences", [name! "data", name! "atEOF"]⟩,
    .forward ⟨name! "TokenCount", [(name! "buf", bytesTy), (name! "splitFunc", .sel (name! "bufio") (name! "SplitFunc"))],
      [.name (name! "int"), .name (name! "error")], name! "realImpl", name! "TokenCount", [name! "buf", name! "splitFunc"]⟩,
    .forward ⟨name! "AllTokens", [(name! "buf", bytesTy), (name! "splitFunc", .sel (name! "bufio") (name! "SplitFunc"))],
      [.slice bytesTy, .name (name! "error")], name! "realImpl", name! "AllTokens", [name! "buf", name! "splitFunc"]⟩]⟩

def autoFiles : List Pkg.File := [fileDoc, file15, file17, fileAgnostic]

theorem parse_auto : autoSources.mapM Pkg.parseFile = some autoFiles := by decide +kernel

theorem tag21 (n : Nat) : releaseTag n (str "go1.21") = decide (21 ≤ n) := by
  rw [releaseTag, show afterPrefix (str "go1.") (str "go1.21") = some (str "21") by decide +kernel]
  simp only [show numVal (str "21") = some 21 by decide +kernel]
  simp
theorem tag27 (n : Nat) : releaseTag n (str "go1.27") = decide (27 ≤ n) := by
  rw [releaseTag, show afterPrefix (str "go1.") (str "go1.27") = some (str "27") by decide +kernel]
  simp only [show numVal (str "27") = some 27 by decide +kernel]
  simp
theorem tag28 (n : Nat) : releaseTag n (str "go1.28") = decide (28 ≤ n) := by
  rw [releaseTag, show afterPrefix (str "go1.") (str "go1.28") = some (str "28") by decide +kernel]
  simp only [show numVal (str "28") = some 28 by decide +kernel]
  simp

theorem compiled_auto (n : Nat) : compiled (releaseTag n) autoFiles =
    if 21 ≤ n ∧ n ≤ 26 then [fileDoc, file15, fileAgnostic] else if n = 27 then [fileDoc, file17, fileAgnostic] else [fileDoc, fileAgnostic] := by
  have h15 : (between "go1.21" "go1.27").eval (releaseTag n) = decide (21 ≤ n ∧ n ≤ 26) := by
    simp only [between, Pkg.Constraint.eval, tag21, tag27]
    by_cases h : 21 ≤ n <;> by_cases h' : 27 ≤ n <;> simp [h, h'] <;> omega
  have h17 : (between "go1.27" "go1.28").eval (releaseTag n) = decide (n = 27) := by
    simp only [between, Pkg.Constraint.eval, tag27, tag28]
    by_cases h : 27 ≤ n <;> by_cases h' : 28 ≤ n <;> simp [h, h'] <;> omega
  simp only [compiled, autoFiles, fileDoc, file15, file17, fileAgnostic, List.filter_cons, List.filter_nil, h15, h17]
  by_cases h : 21 ≤ n ∧ n ≤ 26
  · have : n ≠ 27 := by omega
    simp [h, this]
  · by_cases h' : n = 27 <;> simp [h, h']

theorem package_auto (n : Nat) : autoPackage n =
    some (if 21 ≤ n ∧ n ≤ 26 then [fileDoc, file15, fileAgnostic] else if n = 27 then [fileDoc, file17, fileAgnostic] else [fileDoc, fileAgnostic]) := by
  rw [autoPackage, parse_auto]
  simp only [Option.bind_some, package, compiled_auto]
  split
  · decide +kernel
  · split <;> decide +kernel

end Textseg.Auto
