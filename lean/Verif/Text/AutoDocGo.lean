import Verif.Model.Text
/-!
# The text of autoversion/textseg/doc.go

Generated by tools/gen_text.py.
-/

namespace Textseg.Text

/-- lines 1-26 -/
def autoDocGo0 : List Nat := [
text! "// Package textseg is a wrapper around each of the the Unicode-version-specific",
text! "// textseg implementations that selects an implementation automatically based",
text! "// on the Unicode version of the Go standard library that it's being built",
text! "// against.",
text! "//",
text! "// The main textseg modules are designed with one major version per Unicode",
text! "// major version so that different callers in the same program can potentially",
text! "// use the segmentation rules from different versions of Unicode. However, in",
text! "// programs that are using textseg in conjunction with other Unicode-related",
text! "// functionality in the Go standard library, it could be desirable to keep the",
text! "// textseg version aligned with the Go library's Unicode version so that the",
text! "// total behavior is consistent with a single Unicode version.",
text! "//",
text! "// The API of this package is a subset of the API of the underlying",
text! "// version-specific packages, intended as a drop-in replacement for callers",
text! "// who are using that subset.",
text! "//",
text! "// In order to avoid linking in the data for all unicode versions into a",
text! "// program that imports the autoversion package, this package selects a Unicode",
text! "// version based on the Go compiler version that the program is being built",
text! "// with. That means that this package will need to be upgraded for each new",
text! "// Go version that is released, even if it doesn't introduce a new version of",
text! "// Unicode. There will be a compile-time error indicating that the",
text! "// ScanGraphemeClusters function is unavailable if you are using a Go version",
text! "// that is not supported by your current textseg autoversion package.",
text! "package textseg"]

/-- The lines of the file, in parts of 64 lines. -/
def autoDocGo : List (List Nat) := [autoDocGo0]

end Textseg.Text
