import Verif.Proofs.GoExec
/-!
# The names that the code of the library refers to

What the package-level constants, the types and the calls of each file mean, for `simp`. (Each is computed by the kernel from the
syntax trees.)
-/

namespace Textseg.GoLang
open Textseg

/-- The context of textseg/grapheme_clusters.go -/
def ctxS (W L d : Nat) : Ctx := mkCtx library W (run library W L d) (name! "textseg") fileGraphemeClusters.imports
/-- The context of textseg/internal/machine/state.go -/
def ctxM (W L d : Nat) : Ctx := mkCtx library W (run library W L d) (name! "machine") fileState.imports
/-- The context of textseg/internal/charprops/property_table.go -/
def ctxT (W L d : Nat) : Ctx := mkCtx library W (run library W L d) (name! "charprops") filePropertyTable.imports
/-- The context of textseg/internal/charprops/properties.go -/
def ctxP (W L d : Nat) : Ctx := mkCtx library W (run library W L d) (name! "charprops") fileProperties.imports
/-- The context of textseg/internal/charprops/property_table_raw.go -/
def ctxR (W L d : Nat) : Ctx := mkCtx library W (run library W L d) (name! "charprops") fileTables.imports

section
variable (W L d : Nat)

@[go_exec] theorem ctxS_W : (ctxS W L d).W = W := rfl
@[go_exec] theorem ctxS_callMethod (v : Val) (x : Nat) (args : List Val) :
    (ctxS W L d).callMethod v x args = run library W L d (.method v x args) := rfl
@[go_exec] theorem ctxM_W : (ctxM W L d).W = W := rfl
@[go_exec] theorem ctxM_callMethod (v : Val) (x : Nat) (args : List Val) :
    (ctxM W L d).callMethod v x args = run library W L d (.method v x args) := rfl
@[go_exec] theorem ctxT_W : (ctxT W L d).W = W := rfl
@[go_exec] theorem ctxT_callMethod (v : Val) (x : Nat) (args : List Val) :
    (ctxT W L d).callMethod v x args = run library W L d (.method v x args) := rfl
@[go_exec] theorem ctxP_W : (ctxP W L d).W = W := rfl
@[go_exec] theorem ctxP_callMethod (v : Val) (x : Nat) (args : List Val) :
    (ctxP W L d).callMethod v x args = run library W L d (.method v x args) := rfl
@[go_exec] theorem ctxR_W : (ctxR W L d).W = W := rfl
@[go_exec] theorem ctxR_callMethod (v : Val) (x : Nat) (args : List Val) :
    (ctxR W L d).callMethod v x args = run library W L d (.method v x args) := rfl

@[go_exec] theorem ctxS_imported : (ctxS W L d).imported (name! "charprops") = true := by kernel_rfl
@[go_exec] theorem ctxM_imported : (ctxM W L d).imported (name! "charprops") = true := by kernel_rfl
@[go_exec] theorem ctxS_imported_machine : (ctxS W L d).imported (name! "machine") = true := by kernel_rfl
@[go_exec] theorem ctxP_imported : (ctxP W L d).imported (name! "fmt") = true := by kernel_rfl

@[go_exec] theorem ctxP_GCBNone : globalOrPredeclared (ctxP W L (d + 1)) (name! "GCBNone") = .ok (.u8 tGCB GCBNone) := by kernel_rfl
@[go_exec] theorem ctxP_GCBCR : globalOrPredeclared (ctxP W L (d + 1)) (name! "GCBCR") = .ok (.u8 tGCB GCBCR) := by kernel_rfl
@[go_exec] theorem ctxP_GCBControl : globalOrPredeclared (ctxP W L (d + 1)) (name! "GCBControl") = .ok (.u8 tGCB GCBControl) := by kernel_rfl
@[go_exec] theorem ctxP_GCBExtend : globalOrPredeclared (ctxP W L (d + 1)) (name! "GCBExtend") = .ok (.u8 tGCB GCBExtend) := by kernel_rfl
@[go_exec] theorem ctxP_GCBExtendedPictographic : globalOrPredeclared (ctxP W L (d + 1)) (name! "GCBExtendedPictographic") = .ok (.u8 tGCB GCBExtendedPictographic) := by kernel_rfl
@[go_exec] theorem ctxP_GCBL : globalOrPredeclared (ctxP W L (d + 1)) (name! "GCBL") = .ok (.u8 tGCB GCBL) := by kernel_rfl
@[go_exec] theorem ctxP_GCBLF : globalOrPredeclared (ctxP W L (d + 1)) (name! "GCBLF") = .ok (.u8 tGCB GCBLF) := by kernel_rfl
@[go_exec] theorem ctxP_GCBLV : globalOrPredeclared (ctxP W L (d + 1)) (name! "GCBLV") = .ok (.u8 tGCB GCBLV) := by kernel_rfl
@[go_exec] theorem ctxP_GCBLVT : globalOrPredeclared (ctxP W L (d + 1)) (name! "GCBLVT") = .ok (.u8 tGCB GCBLVT) := by kernel_rfl
@[go_exec] theorem ctxP_GCBPrepend : globalOrPredeclared (ctxP W L (d + 1)) (name! "GCBPrepend") = .ok (.u8 tGCB GCBPrepend) := by kernel_rfl
@[go_exec] theorem ctxP_GCBRegionalIndicator : globalOrPredeclared (ctxP W L (d + 1)) (name! "GCBRegionalIndicator") = .ok (.u8 tGCB GCBRegionalIndicator) := by kernel_rfl
@[go_exec] theorem ctxP_GCBSpacingMark : globalOrPredeclared (ctxP W L (d + 1)) (name! "GCBSpacingMark") = .ok (.u8 tGCB GCBSpacingMark) := by kernel_rfl
@[go_exec] theorem ctxP_GCBT : globalOrPredeclared (ctxP W L (d + 1)) (name! "GCBT") = .ok (.u8 tGCB GCBT) := by kernel_rfl
@[go_exec] theorem ctxP_GCBV : globalOrPredeclared (ctxP W L (d + 1)) (name! "GCBV") = .ok (.u8 tGCB GCBV) := by kernel_rfl
@[go_exec] theorem ctxP_GCBZWJ : globalOrPredeclared (ctxP W L (d + 1)) (name! "GCBZWJ") = .ok (.u8 tGCB GCBZWJ) := by kernel_rfl
@[go_exec] theorem ctxP_GCBError : globalOrPredeclared (ctxP W L (d + 1)) (name! "GCBError") = .ok (.u8 tGCB GCBError) := by kernel_rfl
@[go_exec] theorem ctxP_InCBNone : globalOrPredeclared (ctxP W L (d + 1)) (name! "InCBNone") = .ok (.u8 tInCB InCBNone) := by kernel_rfl
@[go_exec] theorem ctxP_InCBConsonant : globalOrPredeclared (ctxP W L (d + 1)) (name! "InCBConsonant") = .ok (.u8 tInCB InCBConsonant) := by kernel_rfl
@[go_exec] theorem ctxP_InCBExtend : globalOrPredeclared (ctxP W L (d + 1)) (name! "InCBExtend") = .ok (.u8 tInCB InCBExtend) := by kernel_rfl
@[go_exec] theorem ctxP_InCBLinker : globalOrPredeclared (ctxP W L (d + 1)) (name! "InCBLinker") = .ok (.u8 tInCB InCBLinker) := by kernel_rfl
@[go_exec] theorem ctxP_InCBError : globalOrPredeclared (ctxP W L (d + 1)) (name! "InCBError") = .ok (.u8 tInCB InCBError) := by kernel_rfl
@[go_exec] theorem ctxT_Error : globalOrPredeclared (ctxT W L (d + 2)) (name! "Error") = .ok (.u8 tCP ErrorProps) := by kernel_rfl
@[go_exec] theorem ctxP_Error : globalOrPredeclared (ctxP W L (d + 2)) (name! "Error") = .ok (.u8 tCP ErrorProps) := by kernel_rfl
@[go_exec] theorem ctxT_zeroProperties : globalOrPredeclared (ctxT W L (d + 1)) (name! "zeroProperties") = .ok (.u8 tCP zeroProperties) := by kernel_rfl
@[go_exec] theorem ctxS_Error : (ctxS W L (d + 2)).global (name! "charprops") (name! "Error") = .ok (.u8 tCP ErrorProps) := by kernel_rfl
@[go_exec] theorem ctxM_GCBNone : (ctxM W L (d + 1)).global (name! "charprops") (name! "GCBNone") = .ok (.u8 tGCB GCBNone) := by kernel_rfl
@[go_exec] theorem ctxM_GCBCR : (ctxM W L (d + 1)).global (name! "charprops") (name! "GCBCR") = .ok (.u8 tGCB GCBCR) := by kernel_rfl
@[go_exec] theorem ctxM_GCBControl : (ctxM W L (d + 1)).global (name! "charprops") (name! "GCBControl") = .ok (.u8 tGCB GCBControl) := by kernel_rfl
@[go_exec] theorem ctxM_GCBExtend : (ctxM W L (d + 1)).global (name! "charprops") (name! "GCBExtend") = .ok (.u8 tGCB GCBExtend) := by kernel_rfl
@[go_exec] theorem ctxM_GCBExtendedPictographic : (ctxM W L (d + 1)).global (name! "charprops") (name! "GCBExtendedPictographic") = .ok (.u8 tGCB GCBExtendedPictographic) := by kernel_rfl
@[go_exec] theorem ctxM_GCBL : (ctxM W L (d + 1)).global (name! "charprops") (name! "GCBL") = .ok (.u8 tGCB GCBL) := by kernel_rfl
@[go_exec] theorem ctxM_GCBLF : (ctxM W L (d + 1)).global (name! "charprops") (name! "GCBLF") = .ok (.u8 tGCB GCBLF) := by kernel_rfl
@[go_exec] theorem ctxM_GCBLV : (ctxM W L (d + 1)).global (name! "charprops") (name! "GCBLV") = .ok (.u8 tGCB GCBLV) := by kernel_rfl
@[go_exec] theorem ctxM_GCBLVT : (ctxM W L (d + 1)).global (name! "charprops") (name! "GCBLVT") = .ok (.u8 tGCB GCBLVT) := by kernel_rfl
@[go_exec] theorem ctxM_GCBPrepend : (ctxM W L (d + 1)).global (name! "charprops") (name! "GCBPrepend") = .ok (.u8 tGCB GCBPrepend) := by kernel_rfl
@[go_exec] theorem ctxM_GCBRegionalIndicator : (ctxM W L (d + 1)).global (name! "charprops") (name! "GCBRegionalIndicator") = .ok (.u8 tGCB GCBRegionalIndicator) := by kernel_rfl
@[go_exec] theorem ctxM_GCBSpacingMark : (ctxM W L (d + 1)).global (name! "charprops") (name! "GCBSpacingMark") = .ok (.u8 tGCB GCBSpacingMark) := by kernel_rfl
@[go_exec] theorem ctxM_GCBT : (ctxM W L (d + 1)).global (name! "charprops") (name! "GCBT") = .ok (.u8 tGCB GCBT) := by kernel_rfl
@[go_exec] theorem ctxM_GCBV : (ctxM W L (d + 1)).global (name! "charprops") (name! "GCBV") = .ok (.u8 tGCB GCBV) := by kernel_rfl
@[go_exec] theorem ctxM_GCBZWJ : (ctxM W L (d + 1)).global (name! "charprops") (name! "GCBZWJ") = .ok (.u8 tGCB GCBZWJ) := by kernel_rfl
@[go_exec] theorem ctxM_GCBError : (ctxM W L (d + 1)).global (name! "charprops") (name! "GCBError") = .ok (.u8 tGCB GCBError) := by kernel_rfl
@[go_exec] theorem ctxM_InCBNone : (ctxM W L (d + 1)).global (name! "charprops") (name! "InCBNone") = .ok (.u8 tInCB InCBNone) := by kernel_rfl
@[go_exec] theorem ctxM_InCBConsonant : (ctxM W L (d + 1)).global (name! "charprops") (name! "InCBConsonant") = .ok (.u8 tInCB InCBConsonant) := by kernel_rfl
@[go_exec] theorem ctxM_InCBExtend : (ctxM W L (d + 1)).global (name! "charprops") (name! "InCBExtend") = .ok (.u8 tInCB InCBExtend) := by kernel_rfl
@[go_exec] theorem ctxM_InCBLinker : (ctxM W L (d + 1)).global (name! "charprops") (name! "InCBLinker") = .ok (.u8 tInCB InCBLinker) := by kernel_rfl
@[go_exec] theorem ctxM_InCBError : (ctxM W L (d + 1)).global (name! "charprops") (name! "InCBError") = .ok (.u8 tInCB InCBError) := by kernel_rfl
@[go_exec] theorem ctxS_true : globalOrPredeclared (ctxS W L d) (name! "true") = .ok (.bool true) := by kernel_rfl
@[go_exec] theorem ctxS_false : globalOrPredeclared (ctxS W L d) (name! "false") = .ok (.bool false) := by kernel_rfl
@[go_exec] theorem ctxS_nil : globalOrPredeclared (ctxS W L d) (name! "nil") = .ok (.nil) := by kernel_rfl
@[go_exec] theorem ctxM_true : globalOrPredeclared (ctxM W L d) (name! "true") = .ok (.bool true) := by kernel_rfl
@[go_exec] theorem ctxM_false : globalOrPredeclared (ctxM W L d) (name! "false") = .ok (.bool false) := by kernel_rfl
@[go_exec] theorem ctxM_nil : globalOrPredeclared (ctxM W L d) (name! "nil") = .ok (.nil) := by kernel_rfl
@[go_exec] theorem ctxT_true : globalOrPredeclared (ctxT W L d) (name! "true") = .ok (.bool true) := by kernel_rfl
@[go_exec] theorem ctxT_false : globalOrPredeclared (ctxT W L d) (name! "false") = .ok (.bool false) := by kernel_rfl
@[go_exec] theorem ctxT_nil : globalOrPredeclared (ctxT W L d) (name! "nil") = .ok (.nil) := by kernel_rfl
@[go_exec] theorem ctxP_true : globalOrPredeclared (ctxP W L d) (name! "true") = .ok (.bool true) := by kernel_rfl
@[go_exec] theorem ctxP_false : globalOrPredeclared (ctxP W L d) (name! "false") = .ok (.bool false) := by kernel_rfl
@[go_exec] theorem ctxP_nil : globalOrPredeclared (ctxP W L d) (name! "nil") = .ok (.nil) := by kernel_rfl

@[go_exec] theorem ctxS_ty_bool : resolve (ctxS W L d) (.name (name! "bool")) = some (.bool, ⟨0, name! "bool"⟩) := by kernel_rfl
@[go_exec] theorem ctxS_ty_int : resolve (ctxS W L d) (.name (name! "int")) = some (.int, tyInt) := by kernel_rfl
@[go_exec] theorem ctxS_ty_error : resolve (ctxS W L d) (.name (name! "error")) = some (.error, ⟨0, name! "error"⟩) := by kernel_rfl
@[go_exec] theorem ctxS_ty_string : resolve (ctxS W L d) (.name (name! "string")) = some (.str, ⟨0, name! "string"⟩) := by kernel_rfl
@[go_exec] theorem ctxS_ty_bytes : resolve (ctxS W L d) (.slice (.name (name! "byte"))) = some (.bytes, tyU8) := by kernel_rfl
@[go_exec] theorem ctxM_ty_bool : resolve (ctxM W L d) (.name (name! "bool")) = some (.bool, ⟨0, name! "bool"⟩) := by kernel_rfl
@[go_exec] theorem ctxM_ty_int : resolve (ctxM W L d) (.name (name! "int")) = some (.int, tyInt) := by kernel_rfl
@[go_exec] theorem ctxM_ty_error : resolve (ctxM W L d) (.name (name! "error")) = some (.error, ⟨0, name! "error"⟩) := by kernel_rfl
@[go_exec] theorem ctxM_ty_string : resolve (ctxM W L d) (.name (name! "string")) = some (.str, ⟨0, name! "string"⟩) := by kernel_rfl
@[go_exec] theorem ctxM_ty_bytes : resolve (ctxM W L d) (.slice (.name (name! "byte"))) = some (.bytes, tyU8) := by kernel_rfl
@[go_exec] theorem ctxT_ty_bool : resolve (ctxT W L d) (.name (name! "bool")) = some (.bool, ⟨0, name! "bool"⟩) := by kernel_rfl
@[go_exec] theorem ctxT_ty_int : resolve (ctxT W L d) (.name (name! "int")) = some (.int, tyInt) := by kernel_rfl
@[go_exec] theorem ctxT_ty_error : resolve (ctxT W L d) (.name (name! "error")) = some (.error, ⟨0, name! "error"⟩) := by kernel_rfl
@[go_exec] theorem ctxT_ty_string : resolve (ctxT W L d) (.name (name! "string")) = some (.str, ⟨0, name! "string"⟩) := by kernel_rfl
@[go_exec] theorem ctxT_ty_bytes : resolve (ctxT W L d) (.slice (.name (name! "byte"))) = some (.bytes, tyU8) := by kernel_rfl
@[go_exec] theorem ctxP_ty_bool : resolve (ctxP W L d) (.name (name! "bool")) = some (.bool, ⟨0, name! "bool"⟩) := by kernel_rfl
@[go_exec] theorem ctxP_ty_int : resolve (ctxP W L d) (.name (name! "int")) = some (.int, tyInt) := by kernel_rfl
@[go_exec] theorem ctxP_ty_error : resolve (ctxP W L d) (.name (name! "error")) = some (.error, ⟨0, name! "error"⟩) := by kernel_rfl
@[go_exec] theorem ctxP_ty_string : resolve (ctxP W L d) (.name (name! "string")) = some (.str, ⟨0, name! "string"⟩) := by kernel_rfl
@[go_exec] theorem ctxP_ty_bytes : resolve (ctxP W L d) (.slice (.name (name! "byte"))) = some (.bytes, tyU8) := by kernel_rfl
@[go_exec] theorem ctxT_ty_CP : resolve (ctxT W L d) (.name (name! "CharProperties")) = some (.u8, tCP) := by kernel_rfl
@[go_exec] theorem ctxP_ty_CP : resolve (ctxP W L d) (.name (name! "CharProperties")) = some (.u8, tCP) := by kernel_rfl
@[go_exec] theorem ctxR_ty_CP : resolve (ctxR W L d) (.name (name! "CharProperties")) = some (.u8, tCP) := by kernel_rfl
@[go_exec] theorem ctxP_ty_GCB : resolve (ctxP W L d) (.name (name! "GCBProperty")) = some (.u8, tGCB) := by kernel_rfl
@[go_exec] theorem ctxP_ty_InCB : resolve (ctxP W L d) (.name (name! "InCBProperty")) = some (.u8, tInCB) := by kernel_rfl
@[go_exec] theorem ctxM_ty_CP : resolve (ctxM W L d) (.qual (name! "charprops") (name! "CharProperties")) = some (.u8, tCP) := by kernel_rfl
@[go_exec] theorem ctxM_ty_State : resolve (ctxM W L d) (.name (name! "State")) = some (.int, tState) := by kernel_rfl
@[go_exec] theorem ctxR_ty_u8s : resolve (ctxR W L d) (.array (.name (name! "uint8"))) = some (.arr, tyU8) := by kernel_rfl
@[go_exec] theorem ctxR_ty_CPs : resolve (ctxR W L d) (.array (.name (name! "CharProperties"))) = some (.arr, tCP) := by kernel_rfl

@[go_exec] theorem ctxP_conv_uint8 (v : Val) : callName (ctxP W L d) (name! "uint8") [v] =
    (convert W (.u8, tyU8) v >>= fun v => .ok [v]) := by kernel_rfl
@[go_exec] theorem ctxP_conv_CharProperties (v : Val) : callName (ctxP W L d) (name! "CharProperties") [v] =
    (convert W (.u8, tCP) v >>= fun v => .ok [v]) := by kernel_rfl
@[go_exec] theorem ctxP_conv_GCBProperty (v : Val) : callName (ctxP W L d) (name! "GCBProperty") [v] =
    (convert W (.u8, tGCB) v >>= fun v => .ok [v]) := by kernel_rfl
@[go_exec] theorem ctxP_conv_InCBProperty (v : Val) : callName (ctxP W L d) (name! "InCBProperty") [v] =
    (convert W (.u8, tInCB) v >>= fun v => .ok [v]) := by kernel_rfl
@[go_exec] theorem ctxT_conv_int (v : Val) : callName (ctxT W L d) (name! "int") [v] =
    (convert W (.int, tyInt) v >>= fun v => .ok [v]) := by kernel_rfl
@[go_exec] theorem ctxT_len (v : Val) : callName (ctxT W L d) (name! "len") [v] = (lenOf v >>= fun v => .ok [v]) := by kernel_rfl
@[go_exec] theorem ctxS_len (v : Val) : callName (ctxS W L d) (name! "len") [v] = (lenOf v >>= fun v => .ok [v]) := by kernel_rfl
@[go_exec] theorem ctxT_panic : callName (ctxT W L d) (name! "panic") [.str (textLine (name! "unreachable"))] =
    .error (.panic (.explicit "unreachable")) := by kernel_rfl
@[go_exec] theorem ctxM_panic : callName (ctxM W L d) (name! "panic") [.str (textLine (name! "invalid state"))] =
    .error (.panic (.explicit "invalid state")) := by kernel_rfl
@[go_exec] theorem ctxS_LookupFirstChar (vs : List Val) : callQualified (ctxS W L d) (name! "charprops") (name! "LookupFirstChar") vs =
    run library W L d (.func (name! "charprops") (name! "LookupFirstChar") vs) := by kernel_rfl
@[go_exec] theorem ctxS_Begin (vs : List Val) : callQualified (ctxS W L d) (name! "machine") (name! "Begin") vs =
    run library W L d (.func (name! "machine") (name! "Begin") vs) := by kernel_rfl
@[go_exec] theorem ctxP_Sprintf (f : GoString) (vs : List Val) : callQualified (ctxP W L d) (name! "fmt") (name! "Sprintf") (.str f :: vs) =
    (sprintf (ctxP W L d).callMethod f vs >>= fun s => .ok [.str s]) := by kernel_rfl

/-- A small number is a value of type `int`. -/
theorem wrap_nat {W n : Nat} (h : n < 2 ^ (W - 1)) : wrap W n = n := by
  have h1 : 2 ^ W = 2 * 2 ^ (W - 1) ∨ W = 0 := by
    rcases W with _ | W
    · exact Or.inr rfl
    · exact Or.inl (by rw [Nat.add_sub_cancel, Nat.pow_succ, Nat.mul_comm])
  unfold wrap
  rcases h1 with h1 | h1
  · rw [Int.bmod_def]
    have h2 : ((n : Int) % ((2 ^ W : Nat) : Int)) = n := by
      rw [← Int.natCast_emod, Nat.mod_eq_of_lt (by omega)]
    rw [h2, if_pos (by omega)]
  · subst h1
    have : n = 0 := by simpa using h
    subst this; rfl

variable {W}

theorem small {n : Nat} (hW : 32 ≤ W) (hn : n < 2 ^ 31) : n < 2 ^ (W - 1) :=
  Nat.lt_of_lt_of_le hn (Nat.pow_le_pow_right (by decide) (by omega))


theorem ctxM_StateBase (hW : 32 ≤ W) : globalOrPredeclared (ctxM W L (d + 1)) (name! "StateBase") = .ok (.int tState StateBase) := by
  have h : globalOrPredeclared (ctxM W L (d + 1)) (name! "StateBase") = (((if wrap W ((0 : Nat) : Int) = ((0 : Nat) : Int) then .ok (.int tState ((0 : Nat) : Int))
      else stuck) >>= fun v => .ok [v]) >>= fun vs => single vs) := by kernel_rfl
  rw [h, if_pos (wrap_nat (small hW (by decide)))]
  rfl
theorem ctxM_StateAwaitEmojiFlag (hW : 32 ≤ W) : globalOrPredeclared (ctxM W L (d + 1)) (name! "StateAwaitEmojiFlag") = .ok (.int tState StateAwaitEmojiFlag) := by
  have h : globalOrPredeclared (ctxM W L (d + 1)) (name! "StateAwaitEmojiFlag") = (((if wrap W ((1 : Nat) : Int) = ((1 : Nat) : Int) then .ok (.int tState ((1 : Nat) : Int))
      else stuck) >>= fun v => .ok [v]) >>= fun vs => single vs) := by kernel_rfl
  rw [h, if_pos (wrap_nat (small hW (by decide)))]
  rfl
theorem ctxM_StateGB11BeforeZWJ (hW : 32 ≤ W) : globalOrPredeclared (ctxM W L (d + 1)) (name! "StateGB11BeforeZWJ") = .ok (.int tState StateGB11BeforeZWJ) := by
  have h : globalOrPredeclared (ctxM W L (d + 1)) (name! "StateGB11BeforeZWJ") = (((if wrap W ((2 : Nat) : Int) = ((2 : Nat) : Int) then .ok (.int tState ((2 : Nat) : Int))
      else stuck) >>= fun v => .ok [v]) >>= fun vs => single vs) := by kernel_rfl
  rw [h, if_pos (wrap_nat (small hW (by decide)))]
  rfl
theorem ctxM_StateGB11AfterZWJ (hW : 32 ≤ W) : globalOrPredeclared (ctxM W L (d + 1)) (name! "StateGB11AfterZWJ") = .ok (.int tState StateGB11AfterZWJ) := by
  have h : globalOrPredeclared (ctxM W L (d + 1)) (name! "StateGB11AfterZWJ") = (((if wrap W ((3 : Nat) : Int) = ((3 : Nat) : Int) then .ok (.int tState ((3 : Nat) : Int))
      else stuck) >>= fun v => .ok [v]) >>= fun vs => single vs) := by kernel_rfl
  rw [h, if_pos (wrap_nat (small hW (by decide)))]
  rfl
theorem ctxM_StateGB9cConsonant (hW : 32 ≤ W) : globalOrPredeclared (ctxM W L (d + 1)) (name! "StateGB9cConsonant") = .ok (.int tState StateGB9cConsonant) := by
  have h : globalOrPredeclared (ctxM W L (d + 1)) (name! "StateGB9cConsonant") = (((if wrap W ((4 : Nat) : Int) = ((4 : Nat) : Int) then .ok (.int tState ((4 : Nat) : Int))
      else stuck) >>= fun v => .ok [v]) >>= fun vs => single vs) := by kernel_rfl
  rw [h, if_pos (wrap_nat (small hW (by decide)))]
  rfl
theorem ctxM_StateGB9cLinker (hW : 32 ≤ W) : globalOrPredeclared (ctxM W L (d + 1)) (name! "StateGB9cLinker") = .ok (.int tState StateGB9cLinker) := by
  have h : globalOrPredeclared (ctxM W L (d + 1)) (name! "StateGB9cLinker") = (((if wrap W ((5 : Nat) : Int) = ((5 : Nat) : Int) then .ok (.int tState ((5 : Nat) : Int))
      else stuck) >>= fun v => .ok [v]) >>= fun vs => single vs) := by kernel_rfl
  rw [h, if_pos (wrap_nat (small hW (by decide)))]
  rfl

end

end Textseg.GoLang
