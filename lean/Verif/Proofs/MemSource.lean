import Verif.GoMem.Program
import Verif.Proofs.GoExec
/-!
# The parser finds the syntax trees of `GoMem/Program.lean`
-/

namespace Textseg.GoMem
open Textseg

theorem parse_gentable : parseSource Text.gentableGo.flatten = some fileGentable := by kernel_rfl
theorem parse_propertyTree : parseSource Text.propertyTreeGo.flatten = some filePropertyTree := by kernel_rfl
theorem parse_ucdScan : parseSource Text.ucdScanGo.flatten = some fileUcdScan := by kernel_rfl
theorem parse_testdataScan : parseSource Text.testdataScanGo.flatten = some fileTestdataScan := by kernel_rfl
theorem parse_properties : parseSource Text.propertiesGo.flatten = some fileProperties := by kernel_rfl
theorem parse_generate : parseSource Text.generateGo.flatten = some fileGenerate := by kernel_rfl

end Textseg.GoMem
