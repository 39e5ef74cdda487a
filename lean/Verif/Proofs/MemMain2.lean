import Verif.Proofs.MemMain
/-!
# The code of the command charprops/generate.go does what the model says: what is printed
-/

namespace Textseg.GoMem
open Textseg.GoLang (TyId tyInt tyU8 Halt importName wrap)
set_option linter.unusedSimpArgs false

/-- The memory with the buffer at its end. -/
def withBuf (g : Heap) (bs : GoString) : Heap := g ++ [.struct tyBuffer [(0, .str bs)]]

theorem appendBuffer_eq (g : Heap) (bs s : GoString) : appendBuffer g.length s (withBuf g bs) = .ok ((), withBuf g (bs ++ s)) := by
  have hl : load g.length (withBuf g bs) = .ok (.struct tyBuffer [(0, .str bs)], withBuf g bs) := by
    simp [load, withBuf]
  rw [appendBuffer, bind_apply, hl, bindR_ok]
  simp [store, withBuf]

/-- The variables that the printing uses. -/
structure EnvX (env : Env) (g : Heap) (at_ : Nat) : Prop where
  buf : env.get (name! "buf") = some (.cell tyBuffer g.length)
  tree : env.get (name! "tree") = some (.cell tRaw at_)
  fmt : env.get (name! "fmt") = none
  math : env.get (name! "math") = none
  len : env.get (name! "len") = none
  min : env.get (name! "min") = none
  panic : env.get (name! "panic") = none

theorem EnvX.push {env : Env} {g : Heap} {at_ : Nat} (he : EnvX env g at_) (x : Nat) (v : Val) (hx : x = name! "i" ∨ x = name! "items" ∨ x = name! "v") :
    EnvX ((x, v) :: env) g at_ := by
  rcases hx with rfl | rfl | rfl <;> exact ⟨he.buf, he.tree, he.fmt, he.math, he.len, he.min, he.panic⟩

section
variable (m : Machine) (L d : Nat) {env : Env} {g : Heap} {at_ : Nat} (he : EnvX env g at_) (bs : GoString) (n : Nat)
include he

theorem print_eq (s : Nat) : exec (ctxM m L d) L (printS (name! "Fprint") s) n env (withBuf g bs) = .ok (.next env, withBuf g (bs ++ textLine s)) := by
  simp [mem_exec, printS, he.buf, he.fmt, callQM_Fprint, appendBuffer_eq]

theorem println_eq (s : Nat) : exec (ctxM m L d) L (printS (name! "Fprintln") s) n env (withBuf g bs) = .ok (.next env, withBuf g (bs ++ (textLine s ++ [0x0A]))) := by
  simp [mem_exec, printS, he.buf, he.fmt, callQM_Fprintln, appendBuffer_eq]

theorem printf_eq (s : Nat) (e : Expr) (v : Val) (hv : evalMulti (ctxM m L d) env e (withBuf g bs) = .ok ([v], withBuf g bs)) (t : GoString)
    (ht : formatOf (textLine s) [v] = some t) :
    exec (ctxM m L d) L (printfS s e) n env (withBuf g bs) = .ok (.next env, withBuf g (bs ++ t)) := by
  simp [mem_exec, printfS, he.buf, he.fmt, hv, callQM_Fprintf, ht, appendBuffer_eq]
end

theorem hex04 (n : Nat) : hexWidth 4 n = Gen.sprintf04x n := rfl

theorem formatOf_plain (b : UInt8) (hb : b ≠ 0x25) (rest : GoString) (vs : List Val) : formatOf (b :: rest) vs = (formatOf rest vs).map (b :: ·) := by
  rw [formatOf]
  · rw [if_neg hb]
    cases formatOf rest vs <;> rfl
  · intros
    simp_all

theorem formatOf_text : ∀ (s : GoString), 0x25 ∉ s → ∀ (rest : GoString) (vs : List Val), formatOf (s ++ rest) vs = (formatOf rest vs).map (s ++ ·)
  | [], _, rest, vs => by cases h : formatOf rest vs <;> simp [h]
  | b :: s, hs, rest, vs => by
    rw [List.cons_append, formatOf_plain b (fun h => hs (by rw [h]; exact List.mem_cons_self)), formatOf_text s (fun h => hs (List.mem_cons_of_mem _ h))]
    cases formatOf rest vs <;> rfl

theorem format_block (k : Nat) : formatOf (textLine (name! "  // block 0x%04x\n")) [.int tyInt (k : Int)] = some (str "  // block 0x" ++ Gen.sprintf04x k ++ str "\n") := by
  have h0 : hexArg (.int tyInt (k : Int)) = some k := by simp [hexArg]
  have h1 : textLine (name! "  // block 0x%04x\n") = str "  // block 0x" ++ [0x25, 0x30, 0x34, 0x78, 0x0A] := by decide
  rw [h1, formatOf_text _ (by decide)]
  simp [formatOf, h0, hex04]
  decide

theorem hex02 : ∀ p : UInt8, hexWidth 2 p.toNat = [hexDigit (p >>> 4), hexDigit (p &&& 0xf)] := by
  have : ∀ n : Fin 256, hexWidth 2 (UInt8.ofNat n.val).toNat = [hexDigit (UInt8.ofNat n.val >>> 4), hexDigit (UInt8.ofNat n.val &&& 0xf)] := by decide +kernel
  intro p
  have h := this ⟨p.toNat, p.toNat_lt⟩
  rwa [UInt8.ofNat_toNat] at h

theorem format_item (v : Val) (p : UInt8) (hv : hexArg v = some p.toNat) : formatOf (textLine (name! "0x%02x,")) [v] = some (sprintf0x02x p ++ str ",") := by
  have h1 : textLine (name! "0x%02x,") = str "0x" ++ [0x25, 0x30, 0x32, 0x78, 0x2C] := by decide
  have h2 : sprintf0x02x p ++ str "," = str "0x" ++ (hexWidth 2 p.toNat ++ [0x2C]) := by
    rw [hex02, sprintf0x02x, show str "0x" = [0x30, 0x78] by decide, show str "," = [0x2C] by decide]; rfl
  rw [h1, h2, formatOf_text _ (by decide)]
  simp [formatOf, hv]

section
variable (m : Machine) (L d : Nat) {env : Env} {g : Heap} {at_ : Nat} (he : EnvX env g at_) (bs : GoString) (n : Nat)
include he

/-- What the code prints for an index. -/
theorem innerI_eq (x : UInt16) : execs (ctxM m L (d + 1)) L innerI n ((name! "v", .u16 tyU16 x) :: env) (withBuf g bs) =
    match Gen.printIndex x with
    | .ok s => .ok (.next ((name! "v", .u16 tyU16 x) :: env), withBuf g (bs ++ s))
    | .error p => .error (.panic p) := by
  have h0 : (UInt16.ofNat 255 : UInt16) = 255 := rfl
  by_cases hx : 255 < x
  · rw [Gen.printIndex, if_pos hx]
    simp [mem_exec, innerI, he.math, he.panic, hx]
    decide
  · rw [Gen.printIndex, if_neg hx]
    have hn : x.toNat ≤ 255 := by
      rw [UInt16.lt_iff_toNat_lt] at hx
      have : (255 : UInt16).toNat = 255 := rfl
      omega
    have hp := printf_eq m L (d + 1) (he.push (name! "v") (.u16 tyU16 x) (.inr (.inr rfl))) bs n (name! "0x%02x,") (.ident (name! "v")) (.u16 tyU16 x)
      (by simp [mem_exec]) _ (format_item (.u16 tyU16 x) x.toUInt8 (by simp [hexArg]; omega))
    simp [mem_exec, innerI, he.math, he.panic, hx, hp]

/-- What the code prints for a property. -/
theorem innerP_eq (x : UInt8) : execs (ctxM m L (d + 1)) L innerP n ((name! "v", .u8 tyU8 x) :: env) (withBuf g bs) =
    match Gen.printProp x with
    | .ok s => .ok (.next ((name! "v", .u8 tyU8 x) :: env), withBuf g (bs ++ s))
    | .error p => .error (.panic p) := by
  have hp := printf_eq m L (d + 1) (he.push (name! "v") (.u8 tyU8 x) (.inr (.inr rfl))) bs n (name! "0x%02x,") (.ident (name! "v")) (.u8 tyU8 x)
      (by simp [mem_exec]) _ (format_item (.u8 tyU8 x) x (by simp [hexArg]))
  simp [mem_exec, innerP, Gen.printProp, hp]
end

end Textseg.GoMem
