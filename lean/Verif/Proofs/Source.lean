import Verif.GoLang.Program
/-!
# The parser finds the syntax trees of `GoLang/Program.lean`
-/

namespace Textseg.GoLang
open Textseg

theorem parse_graphemeClusters : parseSource Text.graphemeClustersGo.flatten = some fileGraphemeClusters := by kernel_rfl
theorem parse_state : parseSource Text.stateGo.flatten = some fileState := by kernel_rfl
theorem parse_propertyTable : parseSource Text.propertyTableGo.flatten = some filePropertyTable := by kernel_rfl
theorem parse_properties : parseSource Text.propertiesGo.flatten = some fileProperties := by kernel_rfl

end Textseg.GoLang
