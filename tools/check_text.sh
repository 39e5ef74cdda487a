#!/bin/sh
# Prints the bytes that the modules in lean/Verif/Text stand for (textFile ...) and compares them with the files in /repo.
# Needs these modules built.
cd "$(dirname "$0")/../lean" || exit 1
tmp=$(mktemp -d); trap 'rm -rf "$tmp"' EXIT
fail=0
check() { # module definition path
  cat > "$tmp/T.lean" <<EOT
import Verif.Text.$1
def main : IO Unit := do
  (← IO.getStdout).write (ByteArray.mk (Textseg.textFile Textseg.Text.$2.flatten).toArray)
EOT
  lake env lean --run "$tmp/T.lean" > "$tmp/out" && cmp "$tmp/out" "/repo/$3" && echo "$1 = $3" || { echo "$1 differs from $3"; fail=1; }
}
C=textseg/internal/charprops
check TableText tableText $C/property_table_raw.go
check GraphemeClustersGo graphemeClustersGo textseg/grapheme_clusters.go
check StateGo stateGo textseg/internal/machine/state.go
check PropertyTableGo propertyTableGo $C/property_table.go
check PropertiesGo propertiesGo $C/properties.go
check GentableGo gentableGo $C/gentable/generate.go
check PropertyTreeGo propertyTreeGo $C/gentable/property_tree.go
check UcdScanGo ucdScanGo $C/ucdparse/ucd_scan.go
check TestdataScanGo testdataScanGo $C/ucdparse/testdata_scan.go
check GenerateGo generateGo $C/generate.go
check AutoDocGo autoDocGo autoversion/textseg/doc.go
check AutoUnicode15Go autoUnicode15Go autoversion/textseg/unicode15.go
check AutoUnicode17Go autoUnicode17Go autoversion/textseg/unicode17.go
check AutoAgnosticGo autoAgnosticGo autoversion/textseg/version_agnostic.go
check AutoMod autoMod autoversion/go.mod
check RepoMod repoMod go.mod
check BreakProperty breakProperty $(cd /repo && find . -name GraphemeBreakProperty.txt | head -1)
check EmojiData emojiData $(cd /repo && find . -name emoji-data.txt | head -1)
check DerivedCoreProperties derivedCore $(cd /repo && find . -name DerivedCoreProperties.txt | head -1)
check BreakTest breakTest $(cd /repo && find . -name GraphemeBreakTest.txt | head -1)
exit $fail
