import Verif.Model.AllTokens
import Verif.Proofs.Streaming
import Verif.Proofs.Readers
/-!
# Small facts for allTokens
-/

namespace Textseg
open Spec Scanner

theorem overwrite_nil (buf : List UInt8) (off : Nat) : overwrite buf off [] = buf := by simp [overwrite]

theorem mapM_cons {α β : Type} (f : α → Go β) (a : α) (l : List α) {b : β} {bs : List β} (h1 : f a = .ok b)
    (h2 : l.mapM f = .ok bs) : (a :: l).mapM f = .ok (b :: bs) := by
  rw [List.mapM_cons, h1, h2]; rfl

end Textseg
