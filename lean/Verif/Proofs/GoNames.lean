import Verif.Proofs.GoLookups
/-!
# Running the rest of the code of properties.go: the names of properties
-/

namespace Textseg.GoLang
open Textseg

set_option linter.unusedSimpArgs false

variable (W L d : Nat)

theorem run_MakeCharProperties (x y z : UInt8) :
    run library W L (d + 1) (.func (name! "charprops") (name! "MakeCharProperties") [.u8 tGCB x, .u8 tGCB y, .u8 tInCB z]) =
    .ok [.u8 tCP (MakeCharProperties x y z)] := by kernel_rfl

/-- The bytes of a string literal are those of its name. -/
theorem decide_ite {α : Type} (c : Prop) [Decidable c] (x y : α) : (if decide c = true then x else y) = if c then x else y := by
  by_cases h : c <;> simp [h]

theorem beq_ite {α : Type} (a b : UInt8) (x y : α) : (if (a == b) = true then x else y) = if a = b then x else y := by
  by_cases h : a = b <;> simp [h]

theorem ok_ite_u8 (c : Prop) [Decidable c] (t : TyId) (a b : UInt8) :
    (Except.ok [.u8 t (if c then a else b)] : R (List Val)) = if c then .ok [.u8 t a] else .ok [.u8 t b] := by split <;> rfl
theorem ok_ite_str (c : Prop) [Decidable c] (a b : GoString) :
    (Except.ok [.str (if c then a else b)] : R (List Val)) = if c then .ok [.str a] else .ok [.str b] := by split <;> rfl

theorem run_LookupGCBProperty (s : GoString) :
    run library W L (d + 2) (.func (name! "charprops") (name! "LookupGCBProperty") [.str s]) =
    .ok [.u8 tGCB (LookupGCBProperty s)] := by
  show callWith (ctxP W L (d + 1)) L fn_LookupGCBProperty none [.str s] = _
  simp only [fn_LookupGCBProperty, LookupGCBProperty, ok_ite_u8, decide_ite, go_exec, Nat.reduceEqDiff, Nat.reduceAdd, Nat.reduceSub, reduceCtorEq]
  rfl

theorem run_LookupEmojiProperty (s : GoString) :
    run library W L (d + 2) (.func (name! "charprops") (name! "LookupEmojiProperty") [.str s]) =
    .ok [.u8 tGCB (LookupEmojiProperty s)] := by
  show callWith (ctxP W L (d + 1)) L fn_LookupEmojiProperty none [.str s] = _
  simp only [fn_LookupEmojiProperty, LookupEmojiProperty, ok_ite_u8, decide_ite, go_exec, Nat.reduceEqDiff, Nat.reduceAdd, Nat.reduceSub, reduceCtorEq]
  rfl

theorem run_LookupInCBProperty (s : GoString) :
    run library W L (d + 2) (.func (name! "charprops") (name! "LookupInCBProperty") [.str s]) =
    .ok [.u8 tInCB (LookupInCBProperty s)] := by
  show callWith (ctxP W L (d + 1)) L fn_LookupInCBProperty none [.str s] = _
  simp only [fn_LookupInCBProperty, LookupInCBProperty, ok_ite_u8, decide_ite, go_exec, Nat.reduceEqDiff, Nat.reduceAdd, Nat.reduceSub, reduceCtorEq]
  rfl

theorem hexDigitChar_eq : ∀ x : UInt8, [0x30, 0x78, hexDigitChar (x.toNat / 16), hexDigitChar (x.toNat % 16)] = sprintf0x02x x := by
  have h : ∀ n : Fin 256, [0x30, 0x78, hexDigitChar ((UInt8.ofNat n.val).toNat / 16), hexDigitChar ((UInt8.ofNat n.val).toNat % 16)] =
      sprintf0x02x (UInt8.ofNat n.val) := by decide +kernel
  intro x
  have := h ⟨x.toNat, x.toNat_lt⟩
  rwa [UInt8.ofNat_toNat] at this

theorem sprintf_0x02x (cm : Val → (x : Nat) → List Val → R (List Val)) (t : TyId) (x : UInt8) :
    sprintf cm (textLine (name! "0x%02x")) [.u8 t x] = .ok (sprintf0x02x x) := by
  rw [← hexDigitChar_eq]
  kernel_rfl

theorem run_gcbString (x : UInt8) : run library W L (d + 2) (.method (.u8 tGCB x) (name! "String") []) =
    .ok [.str (gcbString x)] := by
  show callWith (ctxP W L (d + 1)) L fn_GCBProperty_String (some (.u8 tGCB x)) [] = _
  simp only [fn_GCBProperty_String, gcbString, ok_ite_str, beq_ite, go_exec, Nat.reduceEqDiff, Nat.reduceAdd, Nat.reduceSub, reduceCtorEq,
    sprintf_0x02x]
  rfl

theorem run_inCBString (x : UInt8) : run library W L (d + 2) (.method (.u8 tInCB x) (name! "String") []) =
    .ok [.str (inCBString x)] := by
  show callWith (ctxP W L (d + 1)) L fn_InCBProperty_String (some (.u8 tInCB x)) [] = _
  simp only [fn_InCBProperty_String, inCBString, ok_ite_str, beq_ite, go_exec, Nat.reduceEqDiff, Nat.reduceAdd, Nat.reduceSub, reduceCtorEq,
    sprintf_0x02x]
  rfl

theorem sprintf_pair (x y : UInt8) :
    sprintf (ctxP W L (d + 2)).callMethod (textLine (name! "%s|InCB=%s")) [.u8 tGCB x, .u8 tInCB y] =
    .ok (gcbString x ++ (str "|InCB=" ++ inCBString y)) := by
  have h : ∀ cm : Val → (x : Nat) → List Val → R (List Val), ∀ a b : GoString,
      cm (.u8 tGCB x) (name! "String") [] = .ok [.str a] → cm (.u8 tInCB y) (name! "String") [] = .ok [.str b] →
      sprintf cm (textLine (name! "%s|InCB=%s")) [.u8 tGCB x, .u8 tInCB y] = .ok (a ++ (str "|InCB=" ++ b)) := by
    intro cm a b ha hb
    have hf : textLine (name! "%s|InCB=%s") = [0x25, 0x73, 0x7C, 0x49, 0x6E, 0x43, 0x42, 0x3D, 0x25, 0x73] := by decide +kernel
    have hs : str "|InCB=" = [0x7C, 0x49, 0x6E, 0x43, 0x42, 0x3D] := by decide +kernel
    rw [hf, hs]
    have h2 : ∀ vs, sprintf cm [0x7C, 0x49, 0x6E, 0x43, 0x42, 0x3D, 0x25, 0x73] vs =
        ((((((sprintf cm [0x25, 0x73] vs >>= fun r => .ok (0x3D :: r)) >>= fun r => .ok (0x42 :: r)) >>= fun r => .ok (0x43 :: r)) >>=
          fun r => .ok (0x6E :: r)) >>= fun r => .ok (0x49 :: r)) >>= fun r => .ok (0x7C :: r)) := by
      intro vs; kernel_rfl
    simp only [sprintf, ha, hb, h2, go_exec]
  exact h _ _ _ (run_gcbString W L d x) (run_inCBString W L d y)

theorem run_charPropertiesString (x : UInt8) : run library W L (d + 3) (.method (.u8 tCP x) (name! "String") []) =
    .ok [.str (charPropertiesString x)] := by
  show callWith (ctxP W L (d + 2)) L fn_CharProperties_String (some (.u8 tCP x)) [] = _
  simp only [fn_CharProperties_String, charPropertiesString, ok_ite_str, beq_ite, go_exec, Nat.reduceEqDiff, Nat.reduceAdd, Nat.reduceSub, reduceCtorEq,
    run_gcbString W L d, run_inCBString W L d, sprintf_pair W L d, Bool.true_beq, Nat.reduceLT, List.append_assoc]
  rfl

end Textseg.GoLang
