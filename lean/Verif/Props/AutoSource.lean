import Verif.Proofs.AutoSource
import Verif.Props.AutoVersion
import Verif.Props.Source
/-!
# C72: the source texts of autoversion, and what a release of Go makes of them

`autoPackage n` is the package that the release 1.`n` compiles from the texts of the files; `Pkg.call other fs f args` is what a call of its
function `f` does, where `other path g args` is what a call of the function `g` of the package with the path `path` does.
-/

namespace Textseg.Props
open Textseg Spec GoLang Auto

/-- **C72.** The texts are accepted, and with every release they compile: no name is declared twice. -/
theorem C72_compiles (n : Nat) : (autoPackage n).isSome := by
  rw [package_auto]
  rfl

variable {V Res : Type} (other : (path f : Nat) → List V → Res) (n : Nat) (fs : List Pkg.File) (hfs : autoPackage n = some fs)
include hfs

/-- **C72.** With the releases 1.21 to 1.26 the package has the function `ScanGraphemeClusters`, which does what that of the package for
Unicode 15 does with the same arguments, and the constant `UnicodeMajorVersion` is 15; with the release 1.27 the same with 17; with all other
releases there is neither. -/
theorem C72_scan (data atEOF : V) :
    (21 ≤ n ∧ n ≤ 26 → Pkg.call other fs (name! "ScanGraphemeClusters") [data, atEOF] = some (other pathV15 (name! "ScanGraphemeClusters") [data, atEOF]) ∧
      Pkg.constant fs (name! "UnicodeMajorVersion") = some 15) ∧
    (n = 27 → Pkg.call other fs (name! "ScanGraphemeClusters") [data, atEOF] = some (other pathV17 (name! "ScanGraphemeClusters") [data, atEOF]) ∧
      Pkg.constant fs (name! "UnicodeMajorVersion") = some 17) ∧
    (n < 21 ∨ 27 < n → Pkg.declOf (name! "ScanGraphemeClusters") fs = none ∧ Pkg.declOf (name! "UnicodeMajorVersion") fs = none) := by
  rw [package_auto] at hfs
  cases hfs
  refine ⟨fun h => ?_, fun h => ?_, fun h => ?_⟩
  · rw [if_pos h]
    exact ⟨rfl, rfl⟩
  · rw [if_neg (by omega), if_pos h]
    exact ⟨rfl, rfl⟩
  · rw [if_neg (by omega), if_neg (by omega)]
    exact ⟨rfl, rfl⟩

/-- **C72.** With every release for which it exists, `ScanGraphemeClusters` has the type of a `bufio.SplitFunc`. -/
theorem C72_type (h : 21 ≤ n ∧ n ≤ 27) : Pkg.signature fs (name! "ScanGraphemeClusters") = some splitFuncType := by
  rw [package_auto] at hfs
  cases hfs
  by_cases h' : n = 27
  · rw [if_neg (by omega), if_pos h']; rfl
  · rw [if_pos (by omega)]; rfl

/-- **C72.** With every release, the three deprecated functions do what those of the package for Unicode 15 do with the same arguments. -/
theorem C72_agnostic (a b : V) :
    Pkg.call other fs (name! "ScanUTF8Sequences") [a, b] = some (other pathV15 (name! "ScanUTF8Sequences") [a, b]) ∧
    Pkg.call other fs (name! "TokenCount") [a, b] = some (other pathV15 (name! "TokenCount") [a, b]) ∧
    Pkg.call other fs (name! "AllTokens") [a, b] = some (other pathV15 (name! "AllTokens") [a, b]) := by
  rw [package_auto] at hfs
  cases hfs
  by_cases h : 21 ≤ n ∧ n ≤ 26
  · rw [if_pos h]; exact ⟨rfl, rfl, rfl⟩
  · by_cases h' : n = 27
    · rw [if_neg h, if_pos h']; exact ⟨rfl, rfl, rfl⟩
    · rw [if_neg h, if_neg h']; exact ⟨rfl, rfl, rfl⟩

/-- **C72.** The packages that are compiled in: the one for Unicode 15 with every release (also with 1.27, although doc.go says that only
one version is), the one for Unicode 17 exactly with 1.27. -/
theorem C72_imports : (pathV15 ∈ (fs.flatMap Pkg.File.imports).map Pkg.Import.path) ∧
    (pathV17 ∈ (fs.flatMap Pkg.File.imports).map Pkg.Import.path ↔ n = 27) ∧
    ∀ path ∈ (fs.flatMap Pkg.File.imports).map Pkg.Import.path, path = pathV15 ∨ path = pathV17 ∨ path = name! "bufio" := by
  rw [package_auto] at hfs
  cases hfs
  by_cases h : 21 ≤ n ∧ n ≤ 26
  · have h' : n ≠ 27 := by omega
    simp only [if_pos h, h', iff_false]
    decide +kernel
  · by_cases h' : n = 27
    · simp only [h', iff_true]
      decide +kernel
    · simp only [if_neg h, h', iff_false]
      decide +kernel

/-- **C72.** The model of C37 agrees with the texts: what it selects is what is declared. -/
theorem C72_model : (selected n).map (·.unicodeMajorVersion) = (Pkg.constant fs (name! "UnicodeMajorVersion")).toList := by
  rw [C37_selected]
  rw [package_auto] at hfs
  cases hfs
  by_cases h : 21 ≤ n ∧ n ≤ 26
  · rw [if_pos h, if_pos h]; rfl
  · by_cases h' : n = 27
    · rw [if_neg h, if_pos h', if_neg h, if_pos h']; rfl
    · rw [if_neg h, if_neg h', if_neg h, if_neg h']; rfl

omit hfs in
/-- **C72.** In each file the `//go:build` line and the `// +build` lines say the same for every release. -/
theorem C72_both_forms (files : List Pkg.File) (hf : autoSources.mapM Pkg.parseFile = some files) (f : Pkg.File) (h : f ∈ files) :
    (match f.goBuild with
      | some c => c.eval (Pkg.releaseTag n)
      | none => true) = f.plusBuild.all (·.eval (Pkg.releaseTag n)) := by
  rw [parse_auto] at hf
  cases hf
  simp only [autoFiles, List.mem_cons, List.not_mem_nil, or_false] at h
  rcases h with rfl | rfl | rfl | rfl <;> simp [fileDoc, file15, file17, fileAgnostic]

omit hfs in
/-- **C72.** The two go.mod files: autoversion requires the modules of which the two packages are parts, in versions with the major number in
their paths; and the package for Unicode 17 is the directory textseg of the module of this repository. Both admit the releases from 1.25 on:
of those, `ScanGraphemeClusters` exists with 1.25, 1.26 and 1.27 only. -/
theorem C72_modules : ∃ auto repo v15, autoModule = some auto ∧ repoModule = some repo ∧
    auto.require = [(v15, str "v15.0.0"), (repo.path, str "v17.0.0")] ∧
    textLine pathV15 = v15 ++ str "/textseg" ∧ textLine pathV17 = repo.path ++ str "/textseg" ∧ auto.go = 25 ∧ repo.go = 25 ∧ repo.require = [] := by
  refine ⟨_, _, str "github.com/apparentlymart/go-textseg/v15", Option.some_get (x := autoModule) (by decide +kernel) |>.symm,
    Option.some_get (x := repoModule) (by decide +kernel) |>.symm, ?_⟩
  decide +kernel

omit hfs in
/-- **C72.** With the release 1.27, `ScanGraphemeClusters` of autoversion does what executing the source texts of this repository does: if a
call of a function of the package for Unicode 17 has the outcomes that the texts have, then for all data (of a length that an `int` can
express) the outcome of the call is that of the model, which the other properties are about. -/
theorem C72_outcome (other : (path f : Nat) → List Val → (R (List Val) → Prop)) (fs : List Pkg.File) (hfs : autoPackage 27 = some fs)
    (prog : Program) (hp : parseAll sources = some prog) (W : Nat) (hW : 32 ≤ W)
    (ho : ∀ f args, other pathV17 f args = Outcome prog W (.func (name! "textseg") f args))
    (data : Option (List UInt8)) (hd : (data.getD []).length < 2 ^ (W - 1)) (atEOF : Bool) :
    ∃ outcome, Pkg.call other fs (name! "ScanGraphemeClusters") [.bytes data, .bool atEOF] = some outcome ∧
      outcome (match ScanGraphemeClusters (data.getD []) atEOF with
        | .ok r => .ok [.int tyInt r.advance, .bytes r.token, .nil]
        | .error p => .error (.panic p)) := by
  refine ⟨_, ((C72_scan other 27 fs hfs _ _).2.1 rfl).1, ?_⟩
  rw [ho]
  exact C66_scan prog hp W hW data hd atEOF

omit hfs in
/-- The hypotheses of `C72_outcome` are met: 64-bit integers, the text "ab" with more to come, and nothing at all in place of the packages for
other versions. -/
example : ∃ fs outcome, autoPackage 27 = some fs ∧
    Pkg.call (fun path f args => if path = pathV17 then Outcome library 64 (.func (name! "textseg") f args) else fun _ => False) fs
      (name! "ScanGraphemeClusters") [.bytes (some (str "ab")), .bool false] = some outcome ∧
    outcome (.ok [.int tyInt 1, .bytes (some (str "a")), .nil]) := by
  obtain ⟨fs, hfs⟩ := Option.isSome_iff_exists.mp (C72_compiles 27)
  obtain ⟨o, h1, h2⟩ := C72_outcome (fun path f args => if path = pathV17 then Outcome library 64 (.func (name! "textseg") f args) else fun _ => False)
    fs hfs library C66_parsed 64 (by omega) (fun f args => if_pos rfl) (some (str "ab")) (by decide) false
  refine ⟨fs, o, hfs, h1, ?_⟩
  have : ScanGraphemeClusters (str "ab") false = .ok ⟨1, some (str "a"), none⟩ := by decide +kernel
  simp only [Option.getD_some, this] at h2
  exact h2

end Textseg.Props
