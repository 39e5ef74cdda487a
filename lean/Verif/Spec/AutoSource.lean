import Verif.GoLang.Package
import Verif.Text.AutoDocGo
import Verif.Text.AutoUnicode15Go
import Verif.Text.AutoUnicode17Go
import Verif.Text.AutoAgnosticGo
import Verif.Text.AutoMod
import Verif.Text.RepoMod
/-!
# What the source texts of autoversion mean

The Go files of autoversion/textseg (without the test; no file name has a suffix for an operating system or architecture), as texts, and the
two go.mod files.
-/

namespace Textseg.Spec
open Textseg GoLang

/-- The lines of the files of autoversion/textseg. -/
def autoSources : List (List Nat) :=
  [Text.autoDocGo.flatten, Text.autoUnicode15Go.flatten, Text.autoUnicode17Go.flatten, Text.autoAgnosticGo.flatten]

/-- The package that the release 1.`n` of Go compiles from the texts; `none` if a text cannot be read or there is a compile-time error. -/
def autoPackage (n : Nat) : Option (List Pkg.File) := (autoSources.mapM Pkg.parseFile).bind (Pkg.package n)

/-- The packages `textseg` for Unicode 15 and 17. -/
def pathV15 : Nat := name! "github.com/apparentlymart/go-textseg/v15/textseg"
def pathV17 : Nat := name! "github.com/apparentlymart/go-textseg/v17/textseg"

/-- The type of a `bufio.SplitFunc`: `func(data []byte, atEOF bool) (int, []byte, error)`. -/
def splitFuncType : List Pkg.Ty × List Pkg.Ty :=
  ([.slice (.name (name! "byte")), .name (name! "bool")], [.name (name! "int"), .slice (.name (name! "byte")), .name (name! "error")])

/-- The go.mod files of autoversion and of the repository. -/
def autoModule : Option Pkg.Mod := Pkg.parseMod Text.autoMod.flatten
def repoModule : Option Pkg.Mod := Pkg.parseMod Text.repoMod.flatten

end Textseg.Spec
