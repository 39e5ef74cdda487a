import Verif.Proofs.MemSource
import Verif.Proofs.MemCompact3
import Verif.Props.GenTable
/-!
# C67: the source text of the table builder, executed according to the language specification

The functions of `Model/GenTable.lean`, which C30, C31 and C32 are about, were written down by hand after gentable/generate.go. Here
the text of that file is parsed, and the syntax tree is executed by an interpreter for Go with a memory, in which slices share arrays,
`append` writes in place or moves, maps are shared and structs have addresses. The outcome is always what the functions give.
-/

namespace Textseg.Props
open Textseg Spec GoMem

/-- The texts are accepted by the parser. -/
theorem C67_parsed : parseMem gentableSources = some gentable := by
  simp only [gentableSources, parseMem, bind, Option.bind, parse_gentable, parse_propertyTree, parse_ucdScan,
    parse_testdataScan, parse_properties, parse_generate]
  rfl

theorem is_gentable {prog : Program} (h : parseMem gentableSources = some prog) : prog = gentable :=
  (Option.some.inj (h.symm.trans C67_parsed))

theorem map_inj {α β : Type} {f : α → β} (hf : ∀ a b, f a = f b → a = b) : ∀ {l l' : List α}, l.map f = l'.map f → l = l'
  | [], [], _ => rfl
  | [], _ :: _, h => by simp at h
  | _ :: _, [], h => by simp at h
  | a :: l, b :: l', h => by
    simp only [List.map_cons, List.cons.injEq] at h
    rw [hf a b h.1, map_inj hf h.2]

/-- A value has at most one contents. -/
theorem isRaw_unique {h : Heap} {v : Val} {i i' : List UInt16} {p p' : List UInt8} (h1 : IsRaw h v i p) (h2 : IsRaw h v i' p') :
    i = i' ∧ p = p' := by
  obtain ⟨s, s', rfl, h3, h4, -⟩ := h1
  obtain ⟨r, r', e, h5, h6, -⟩ := h2
  simp only [Val.struct.injEq, List.cons.injEq, Prod.mk.injEq, Val.slice.injEq, true_and, and_true] at e
  obtain ⟨rfl, rfl⟩ := e
  rw [h3] at h5
  rw [h4] at h6
  simp only [Except.ok.injEq, Prod.mk.injEq, and_true] at h5 h6
  exact ⟨map_inj (fun a b e => by injection e) h5, map_inj (fun a b e => by injection e) h6⟩

theorem not_both {prog : Program} {m : Machine} {ops : List TableOp} {i : List UInt16} {p : List UInt8}
    (h1 : SessionReturns prog m ops i p) (h2 : SessionPanics prog m ops) : False := by
  obtain ⟨b, h1⟩ := h1
  obtain ⟨b', h2⟩ := h2
  obtain ⟨v, h, e, _⟩ := h1 (b + b') (b + b') (by omega) (by omega)
  obtain ⟨p, e'⟩ := h2 (b + b') (b + b') (by omega) (by omega)
  rw [e] at e'
  cases e'

theorem returns_unique {prog : Program} {m : Machine} {ops : List TableOp} {i i' : List UInt16} {p p' : List UInt8}
    (h1 : SessionReturns prog m ops i p) (h2 : SessionReturns prog m ops i' p') : i = i' ∧ p = p' := by
  obtain ⟨b, h1⟩ := h1
  obtain ⟨b', h2⟩ := h2
  obtain ⟨v, h, e, r⟩ := h1 (b + b') (b + b') (by omega) (by omega)
  obtain ⟨v', h', e', r'⟩ := h2 (b + b') (b + b') (by omega) (by omega)
  rw [e] at e'
  simp only [Except.ok.injEq, Prod.mk.injEq, List.cons.injEq, and_true] at e'
  obtain ⟨rfl, rfl⟩ := e'
  exact isRaw_unique r r'

section
variable (prog : Program) (hp : parseMem gentableSources = some prog) (m : Machine) (hW : 32 ≤ m.W)
include hp hW

/-- **C67.** For every sequence of calls of `Set` and `BitwiseOr` on a new tree, followed by `Compact`: if the model returns a table,
executing the source text returns a `RawPropertyTree` with the same contents; otherwise executing the source text panics. However
`append` chooses the capacities of new arrays (`m.grow`), however many bits an `int` has (`m.W`, at least 32) and whatever text
`fmt.Sprintf` returns (`m.sprintf`). -/
theorem C67_table (ops : List TableOp) :
    match (Gen.runOps Gen.newTree ops >>= fun t => t.Compact) with
    | .ok raw => SessionReturns prog m ops raw.Indices raw.Properties
    | .error _ => SessionPanics prog m ops := by
  cases is_gentable hp
  have h := fun L d => session_spec m hW L d ops
  split
  · next raw e =>
    simp only [e] at h
    refine ⟨7, fun L depth _ hd => ?_⟩
    rw [show depth = depth - 7 + 7 by omega]
    exact h L (depth - 7)
  · next er e =>
    simp only [e] at h
    refine ⟨7, fun L depth _ hd => ?_⟩
    rw [show depth = depth - 7 + 7 by omega]
    exact h L (depth - 7)

/-- **C67.** Which calls succeed: executing the source text returns a `RawPropertyTree` exactly if no call of `Set` with the value 4
meets a character that has a value, at most 1021 blocks of 64 characters outside ASCII are mentioned, and there is no clash with ASCII;
and otherwise it panics. So it never runs forever and never meets a value of a wrong type. -/
theorem C67_success (ops : List TableOp) :
    (¬ Conflict ops ∧ AtMostBlocks ops 1021 ∧ ¬ AsciiClash ops → ∃ indices properties, SessionReturns prog m ops indices properties) ∧
    (¬ (¬ Conflict ops ∧ AtMostBlocks ops 1021 ∧ ¬ AsciiClash ops) → SessionPanics prog m ops) := by
  have h := C67_table prog hp m hW ops
  by_cases hc : Conflict ops
  · rw [Gen.C30_conflict ops hc] at h
    exact ⟨fun h' => absurd hc h'.1, fun _ => h⟩
  · obtain ⟨t, ht, _⟩ := Gen.C30_recorded ops hc
    have hs := Gen.C31_success ops t ht
    rw [ht] at h
    simp only [bind, Except.bind] at h
    rcases hr : t.Compact with er | raw
    · rw [hr] at h
      refine ⟨fun h' => ?_, fun _ => h⟩
      obtain ⟨raw, hr'⟩ := hs.mpr h'.2
      rw [hr] at hr'
      cases hr'
    · rw [hr] at h
      exact ⟨fun _ => ⟨_, _, h⟩, fun h' => absurd ⟨hc, hs.mp ⟨raw, hr⟩⟩ h'⟩

/-- **C67.** What the table says: if the session returns a table whose indices fit into a byte, then looking up any character in it
gives the value that the calls recorded for the character. -/
theorem C67_lookup (ops : List TableOp) (indices : List UInt16) (properties : List UInt8)
    (h : SessionReturns prog m ops indices properties) (hb : ∀ v ∈ indices, v.toNat < 256) (c : Char) (rest : List UInt8) :
    LookupFirstCharIn (goIndex (indices.map fun v => v.toUInt8)) (goIndex properties) (String.utf8EncodeChar c ++ rest) =
      .ok (recorded ops c.val.toNat, (String.utf8EncodeChar c).length) := by
  have ht := C67_table prog hp m hW ops
  rcases hr : Gen.runOps Gen.newTree ops with er | t
  · rw [hr] at ht
    exact (not_both h ht).elim
  · rcases hc : t.Compact with er | raw
    · simp only [hr, hc, bind, Except.bind] at ht
      exact (not_both h ht).elim
    · simp only [hr, hc, bind, Except.bind] at ht
      obtain ⟨rfl, rfl⟩ := returns_unique h ht
      refine Gen.C31_compaction ops t raw _ hr hc ?_ c rest
      unfold Gen.outputIndices
      rw [if_pos]
      rw [List.all_eq_true]
      intro v hv
      have := hb v hv
      simp only [decide_eq_true_eq, UInt16.le_iff_toNat_le]
      show v.toNat ≤ 255
      omega
end

/-- A machine without files. -/
def exampleMachine (W : Nat) (grow : Nat → Nat → Nat) : Machine where
  W := W
  grow := grow
  sprintf := fun _ => []
  join := fun _ => []
  open_ := fun _ => .error 0
  lines := fun _ _ => .ok none
  scanErr := fun _ _ => none
  junk := fun _ _ _ => 0
  create := fun _ => .ok ()
  write := fun bs => bs.length
  killed := fun _ => false
  format := fun s => .ok s

/-- The hypotheses of C67 are met: by machines with `int`s of 64 bits, arrays that double, and any text; the calls of `exampleOps`
return a table. -/
example : ∃ indices properties, SessionReturns gentable (exampleMachine 64 fun a b => 2 * a + b) Gen.exampleOps indices properties :=
  (C67_success gentable C67_parsed _ (by decide) Gen.exampleOps).1 ⟨Gen.exampleOps_ok, Gen.example_blocks, Gen.example_clash⟩

/-- A conflict panics. -/
example : SessionPanics gentable (exampleMachine 32 fun _ b => b) [.set 0x1F600 1, .set 0x1F600 4] :=
  (C67_success gentable C67_parsed _ (by decide) _).2 fun h => h.1 ⟨[.set 0x1F600 1], 0x1F600, [], rfl, by decide +kernel⟩

end Textseg.Props
