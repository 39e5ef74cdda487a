import Verif.Proofs.Table
/-!
# The properties of the ASCII characters
-/

namespace Textseg
open Spec

theorem ascii_G : restrict 0 127 graphemeBreakProperty =
    [(0x0D, 0x0D, .CR), (0x0A, 0x0A, .LF), (0x00, 0x09, .Control), (0x0B, 0x0C, .Control), (0x0E, 0x1F, .Control),
      (0x7F, 0x9F, .Control)] := by decide +kernel

theorem ascii_E : restrict 0 127 extendedPictographic = [] := by decide +kernel

theorem ascii_I : restrict 0 127 indicConjunctBreak = [] := by decide +kernel

theorem ucd_ascii {n : Nat} (h : n < 128) : ucd n =
    if n = 0x0D then ⟨.CR, false, .None⟩ else if n = 0x0A then ⟨.LF, false, .None⟩
      else if n < 0x20 ∨ n = 0x7F then ⟨.Control, false, .None⟩ else CharProps.none := by
  have h' : n ≤ 127 := by omega
  rw [ucd, ← lookupRange_restrict (Nat.zero_le n) h' graphemeBreakProperty, ascii_G,
    ← lookupRange_restrict (Nat.zero_le n) h' extendedPictographic, ascii_E,
    ← lookupRange_restrict (Nat.zero_le n) h' indicConjunctBreak, ascii_I]
  have key : ∀ n : Fin 128, (⟨(lookupRange n.val [(0x0D, 0x0D, GCB.CR), (0x0A, 0x0A, .LF), (0x00, 0x09, .Control),
      (0x0B, 0x0C, .Control), (0x0E, 0x1F, .Control), (0x7F, 0x9F, .Control)]).getD .Other, false, .None⟩ : CharProps) =
      if n.val = 0x0D then ⟨.CR, false, .None⟩ else if n.val = 0x0A then ⟨.LF, false, .None⟩
      else if n.val < 0x20 ∨ n.val = 0x7F then ⟨.Control, false, .None⟩ else CharProps.none := by decide +kernel
  exact key ⟨n, h⟩

end Textseg
