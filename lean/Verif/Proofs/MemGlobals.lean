import Verif.Proofs.MemExec
import Verif.Proofs.GoExec
/-!
# The names that the code of the generator refers to
-/

namespace Textseg.GoMem
open Textseg.GoLang (TyId tyInt tyU8 Halt importName wrap)

/-- The element type of `[]uint8`. -/
abbrev tB : GTy := .u8 tyU8
/-- The element type of `[]uint16`. -/
abbrev tI : GTy := .u16 tyU16

/-- The package-level variables: `zeroIndexBlock` is at address 0, `zeroPropertyBlock` at address 1, those of ucdparse follow. -/
def varsG : Vars :=
  [((name! "ucdparse", name! "nonsplitMarker"), .slice noName tB (some ⟨6, 0, 2, 2⟩)),
    ((name! "ucdparse", name! "splitMarker"), .slice noName tB (some ⟨5, 0, 2, 2⟩)),
    ((name! "ucdparse", name! "rangeSeparator"), .slice noName tB (some ⟨4, 0, 2, 2⟩)),
    ((name! "ucdparse", name! "fieldSeparator"), .slice noName tB (some ⟨3, 0, 1, 1⟩)),
    ((name! "ucdparse", name! "commentMarker"), .slice noName tB (some ⟨2, 0, 1, 1⟩)),
    ((name! "gentable", name! "zeroPropertyBlock"), .slice noName tB (some ⟨1, 0, 64, 64⟩)),
    ((name! "gentable", name! "zeroIndexBlock"), .slice noName tI (some ⟨0, 0, 64, 64⟩))]

/-- The memory after the initialisation of the package. -/
def heap0 : Heap := [.arr (List.replicate 64 (.u16 tyU16 0)), .arr (List.replicate 64 (.u8 tyU8 0)),
  .arr [.u8 tyU8 0x23], .arr [.u8 tyU8 0x3B], .arr [.u8 tyU8 0x2E, .u8 tyU8 0x2E], .arr [.u8 tyU8 0xC3, .u8 tyU8 0xB7],
  .arr [.u8 tyU8 0xC3, .u8 tyU8 0x97]]

/-- References in gentable. -/
def R (m : Machine) (L d : Nat) : Ref → M (List Val) := run gentable m varsG L d

/-- The context of gentable/generate.go -/
def ctx (m : Machine) (L d : Nat) : Ctx := mkCtx gentable m (R m L d) (name! "gentable") fileGentable.imports

def tTree : TyId := ⟨name! "gentable", name! "treeInProgress"⟩
def tRaw : TyId := ⟨name! "gentable", name! "RawPropertyTree"⟩

section
variable (m : Machine) (L d : Nat) (h : Heap)

theorem init_gentable : initFiles gentable m L (d + 2) gentable [] [] = .ok (varsG, heap0) := by kernel_rfl

@[mem_exec] theorem ctx_m : (ctx m L d).m = m := rfl
@[mem_exec] theorem ctx_callFunc (p x : Nat) (args : List Val) : (ctx m L d).callFunc p x args h = R m L d (.func p x args) h := rfl
@[mem_exec] theorem ctx_callMethod (v : Val) (x : Nat) (args : List Val) :
    (ctx m L d).callMethod v x args h = R m L d (.method v x args) h := rfl

@[mem_exec] theorem imported_utf8 : (ctx m L d).imported (name! "utf8") = true := by kernel_rfl
@[mem_exec] theorem imported_fmt : (ctx m L d).imported (name! "fmt") = true := by kernel_rfl

@[mem_exec] theorem global_blockShift : globalOrPredeclared (ctx m L (d + 1)) (name! "blockShift") h = .ok (.const 6, h) := by kernel_rfl
@[mem_exec] theorem global_blockSize : globalOrPredeclared (ctx m L (d + 2)) (name! "blockSize") h = .ok (.const 64, h) := by kernel_rfl
@[mem_exec] theorem global_blockMask : globalOrPredeclared (ctx m L (d + 3)) (name! "blockMask") h = .ok (.u8 tyU8 63, h) := by kernel_rfl
@[mem_exec] theorem global_zeroIndexBlock : globalOrPredeclared (ctx m L (d + 1)) (name! "zeroIndexBlock") h =
    .ok (.slice noName tI (some ⟨0, 0, 64, 64⟩), h) := by kernel_rfl
@[mem_exec] theorem global_zeroPropertyBlock : globalOrPredeclared (ctx m L (d + 1)) (name! "zeroPropertyBlock") h =
    .ok (.slice noName tB (some ⟨1, 0, 64, 64⟩), h) := by kernel_rfl

@[mem_exec] theorem find_make : (find (ctx m L d).pkg (name! "make") (ctx m L d).prog).isNone = true := by kernel_rfl
@[mem_exec] theorem find_append : (find (ctx m L d).pkg (name! "append") (ctx m L d).prog).isNone = true := by kernel_rfl

@[mem_exec] theorem callName_len (v : Val) : callName (ctx m L d) (name! "len") [v] h = bindR (len v h) fun v h => .ok ([v], h) := by kernel_rfl
@[mem_exec] theorem callName_int (v : Val) : callName (ctx m L d) (name! "int") [v] h =
    bindR (convert m.W (.int tyInt) v h) fun v h => .ok ([v], h) := by kernel_rfl
@[mem_exec] theorem callName_uint16 (v : Val) : callName (ctx m L d) (name! "uint16") [v] h =
    bindR (convert m.W tI v h) fun v h => .ok ([v], h) := by kernel_rfl
@[mem_exec] theorem callName_byte (v : Val) : callName (ctx m L d) (name! "byte") [v] h =
    bindR (convert m.W tB v h) fun v h => .ok ([v], h) := by kernel_rfl
@[mem_exec] theorem callName_string (v : Val) : callName (ctx m L d) (name! "string") [v] h =
    bindR (convert m.W .str v h) fun v h => .ok ([v], h) := by kernel_rfl
@[mem_exec] theorem callName_panic (s : GoString) : callName (ctx m L d) (name! "panic") [.str s] h =
    .error (.panic (.explicit (String.ofList (s.map fun b => Char.ofNat b.toNat)))) := by kernel_rfl
@[mem_exec] theorem callName_indexBlockKey (args : List Val) : callName (ctx m L d) (name! "indexBlockKey") args h =
    R m L d (.func (name! "gentable") (name! "indexBlockKey") args) h := by kernel_rfl
@[mem_exec] theorem callName_propertyBlockKey (args : List Val) : callName (ctx m L d) (name! "propertyBlockKey") args h =
    R m L d (.func (name! "gentable") (name! "propertyBlockKey") args) h := by kernel_rfl
@[mem_exec] theorem callQualified_EncodeRune (t t' : TyId) (s : Option Sl) (r : Int32) :
    callQualified (ctx m L d) (name! "utf8") (name! "EncodeRune") [.slice t (.u8 t') s, .rune tyRune r] h =
    bindR (writeBytes s (EncodeRune r) h) fun _ h => .ok ([.int tyInt (EncodeRune r).length], h) := by kernel_rfl
@[mem_exec] theorem callQualified_Sprintf3 (s : GoString) (t u w : TyId) (r : Int32) (a b : UInt8) :
    callQualified (ctx m L d) (name! "fmt") (name! "Sprintf") [.str s, .rune t r, .u8 u a, .u8 w b] h =
    .ok ([.str (m.sprintf [.str s, .rune t r, .u8 u a, .u8 w b])], h) := by kernel_rfl
@[mem_exec] theorem callQualified_Sprintf (s : GoString) (t : TyId) (i : Int) :
    callQualified (ctx m L d) (name! "fmt") (name! "Sprintf") [.str s, .int t i] h = .ok ([.str (m.sprintf [.str s, .int t i])], h) := by kernel_rfl

@[mem_exec] theorem resolve_int : resolve (ctx m L d) (.name (name! "int")) h = .ok (.int tyInt, h) := by kernel_rfl
@[mem_exec] theorem resolve_uint8 : resolve (ctx m L d) (.name (name! "uint8")) h = .ok (tB, h) := by kernel_rfl
@[mem_exec] theorem resolve_rune : resolve (ctx m L d) (.name (name! "rune")) h = .ok (.rune tyRune, h) := by kernel_rfl
@[mem_exec] theorem resolve_string : resolve (ctx m L d) (.name (name! "string")) h = .ok (.str, h) := by kernel_rfl
@[mem_exec] theorem resolve_uint8s : resolve (ctx m L d) (.slice (.name (name! "uint8"))) h = .ok (.slice noName tB, h) := by kernel_rfl
@[mem_exec] theorem resolve_bytes : resolve (ctx m L d) (.slice (.name (name! "byte"))) h = .ok (.slice noName tB, h) := by kernel_rfl
@[mem_exec] theorem resolve_uint16s : resolve (ctx m L d) (.slice (.name (name! "uint16"))) h = .ok (.slice noName tI, h) := by kernel_rfl
@[mem_exec] theorem resolve_tree : resolve (ctx m L d) (.ptr (.name (name! "treeInProgress"))) h = .ok (.ptr (.struct tTree), h) := by kernel_rfl
@[mem_exec] theorem resolve_treeS : resolve (ctx m L d) (.name (name! "treeInProgress")) h = .ok (.struct tTree, h) := by kernel_rfl
@[mem_exec] theorem resolve_rawPtr : resolve (ctx m L d) (.ptr (.name (name! "RawPropertyTree"))) h = .ok (.ptr (.struct tRaw), h) := by kernel_rfl
@[mem_exec] theorem resolve_raw : resolve (ctx m L d) (.name (name! "RawPropertyTree")) h = .ok (.struct tRaw, h) := by kernel_rfl
@[mem_exec] theorem resolve_uint8Ptr : resolve (ctx m L d) (.ptr (.name (name! "uint8"))) h = .ok (.ptr tB, h) := by kernel_rfl
@[mem_exec] theorem resolve_map : resolve (ctx m L d) (.map (.name (name! "string")) (.name (name! "uint16"))) h = .ok (.map tI, h) := by kernel_rfl
@[mem_exec] theorem resolve_keyArray : resolve (ctx m L (d + 2)) (.array (.mul (.name (name! "blockSize")) (.num 2)) (.name (name! "byte"))) h =
    .ok (.array tB 128, h) := by kernel_rfl

theorem R_indexBlockKey (args : List Val) : R m L (d + 1) (.func (name! "gentable") (name! "indexBlockKey") args) h =
    callWith (ctx m L d) L fn_indexBlockKey none args h := by kernel_rfl
theorem R_propertyBlockKey (args : List Val) : R m L (d + 1) (.func (name! "gentable") (name! "propertyBlockKey") args) h =
    callWith (ctx m L d) L fn_propertyBlockKey none args h := by kernel_rfl
theorem R_newTree (args : List Val) : R m L (d + 1) (.func (name! "gentable") (name! "newTreeInProgress") args) h =
    callWith (ctx m L d) L fn_newTree none args h := by kernel_rfl
theorem R_Set (p : Nat) (args : List Val) : R m L (d + 1) (.method (.ptr tTree p) (name! "Set") args) h =
    callWith (ctx m L d) L fn_Set (some (.ptr tTree p)) args h := by kernel_rfl
theorem R_BitwiseOr (p : Nat) (args : List Val) : R m L (d + 1) (.method (.ptr tTree p) (name! "BitwiseOr") args) h =
    callWith (ctx m L d) L fn_BitwiseOr (some (.ptr tTree p)) args h := by kernel_rfl
theorem R_ensureProps (p : Nat) (args : List Val) : R m L (d + 1) (.method (.ptr tTree p) (name! "ensureProps") args) h =
    callWith (ctx m L d) L fn_ensureProps (some (.ptr tTree p)) args h := by kernel_rfl
theorem R_Compact (p : Nat) (args : List Val) : R m L (d + 1) (.method (.ptr tTree p) (name! "Compact") args) h =
    callWith (ctx m L d) L fn_Compact (some (.ptr tTree p)) args h := by kernel_rfl
theorem R_build (p : Nat) (args : List Val) : R m L (d + 1) (.method (.ptr tTree p) (name! "buildCompactedBlocks") args) h =
    callWith (ctx m L d) L fn_build (some (.ptr tTree p)) args h := by kernel_rfl
end

end Textseg.GoMem
