import Verif.Proofs.GenOps
/-!
# C30–C32: the table generator

`runOps newTree ops` is the tree under construction after the operations `ops` (the generator performs nothing but such
operations before it calls `Compact`). `recorded`, `Conflict`, `AtMostBlocks`, `AsciiClash` and `Refers` are from
`Verif/Spec/GenTable.lean`.
-/

namespace Textseg.Gen
open Textseg Spec

/-- **C30.** Without a conflict all operations succeed, and then the property found (or made, with value 0) for every rune is
the result of the operations addressed to its character. -/
theorem C30_recorded (ops : List TableOp) (h : ¬ Conflict ops) : ∃ t, runOps newTree ops = .ok t ∧
    ∀ r, ∃ t' i, ensureProps t r = .ok (t', i) ∧ goIndex t'.rawProps i = .ok (recorded ops (codePoint r)) := by
  rcases runOps_new ops with ⟨h1, _⟩ | ⟨_, t, IB, PB, h1, h2⟩
  · exact absurd h1 h
  · refine ⟨t, h1, ?_⟩
    intro r
    obtain ⟨t', IB', PB', i, e, h3, hi, _⟩ := ensureProps_spec h2.inv r
    refine ⟨t', _, e, ?_⟩
    rw [goIndex_some (inv_read h3 hi), codePoint_eq]

/-- **C30.** An operation that sets Extended_Pictographic for a character with another property makes the generator panic. -/
theorem C30_conflict (ops : List TableOp) (h : Conflict ops) :
    runOps newTree ops = .error (.explicit "conflicting properties") := by
  rcases runOps_new ops with ⟨_, h1⟩ | ⟨h1, _⟩
  · exact h1
  · exact absurd h h1

/-- Operations on ASCII, on a character of four bytes, on a surrogate, repeated ones. -/
def exampleOps : List TableOp :=
  [.set 10 3, .set 0x300 1, .bitwiseOr 0x300 0x40, .set 0x1F600 4, .set 0xD800 2, .bitwiseOr 0x1F600 0x20, .set 0x300 9]

example : recorded exampleOps 0x300 = 9 := by decide +kernel
example : recorded exampleOps 0x1F600 = 0x24 := by decide +kernel
example : recorded exampleOps 0xFFFD = 2 := by decide +kernel
example : recorded exampleOps 0x301 = 0 := by decide +kernel

theorem not_conflict_of (ops : List TableOp) (h : ∀ n, n < ops.length → ∀ r, ops[n]? = some (.set r 4) →
    recorded (ops.take n) (codePoint r) = 0) : ¬ Conflict ops := by
  rintro ⟨pre, r, post, e, hne⟩
  apply hne
  have := h pre.length (by rw [e]; simp) r (by rw [e]; simp)
  rwa [e, List.take_left'] at this
  rfl

theorem exampleOps_ok : ¬ Conflict exampleOps := by
  apply not_conflict_of
  intro n hn r hr
  simp only [exampleOps, List.length_cons, List.length_nil] at hn
  match n with
  | 0 => simp [exampleOps] at hr
  | 1 => simp [exampleOps] at hr
  | 2 => simp [exampleOps] at hr
  | 3 =>
    simp [exampleOps] at hr
    subst hr
    decide +kernel
  | 4 => simp [exampleOps] at hr
  | 5 => simp [exampleOps] at hr
  | 6 => simp [exampleOps] at hr
  | n + 7 => omega

example : Conflict [.bitwiseOr 0x1F600 0x20, .set 0x1F600 4] :=
  ⟨[.bitwiseOr 0x1F600 0x20], 0x1F600, [], rfl, by decide +kernel⟩

/-- **C31.** Whenever the generator finishes, the tables that it writes give, when they are read by the code of
`LookupFirstChar`, every character the property that was recorded for it. -/
theorem C31_compaction (ops : List TableOp) (t : Tree) (raw : RawPropertyTree) (tab : List UInt8)
    (h : runOps newTree ops = .ok t) (hc : t.Compact = .ok raw) (ho : outputIndices raw = .ok tab) (c : Char) (rest : List UInt8) :
    LookupFirstCharIn (goIndex tab) (goIndex (outputProps raw)) (String.utf8EncodeChar c ++ rest) =
      .ok (recorded ops c.val.toNat, (String.utf8EncodeChar c).length) := by
  obtain ⟨IB, PB, hi⟩ := runOps_ok h
  obtain ⟨st, hf, e, _⟩ := compact_final hi hc
  have hn := narrow_output ho
  subst e
  exact lookupIn_char hf hn c rest

/-- **C31.** Compaction succeeds exactly if, outside ASCII, characters in at most 1021 blocks of 64 were addressed and the
ASCII characters do not clash (see `AsciiClash`). Otherwise it panics, so that it never gives a wrong table. -/
theorem C31_success (ops : List TableOp) (t : Tree) (h : runOps newTree ops = .ok t) :
    (∃ raw, t.Compact = .ok raw) ↔ (AtMostBlocks ops 1021 ∧ ¬ AsciiClash ops) := by
  obtain ⟨IB, PB, hi⟩ := runOps_ok h
  exact compact_iff hi

theorem example_blocks : AtMostBlocks exampleOps 1021 :=
  ⟨[0x300 / 64, 0x1F600 / 64, 0xFFFD / 64], by decide, by
    intro o ho _
    simp only [exampleOps, List.mem_cons, List.not_mem_nil, or_false] at ho
    rcases ho with rfl | rfl | rfl | rfl | rfl | rfl | rfl <;> first | (exfalso; revert ‹128 ≤ _›; decide +kernel) | decide +kernel⟩

theorem example_clash : ¬ AsciiClash exampleOps := by
  rintro ⟨_, h | ⟨k, h1, h2, h3⟩⟩
  · have := h 10 (by omega)
    revert this
    decide +kernel
  · have h4 := h3 10 (by omega)
    have h5 : recorded exampleOps (64 * 0 + 10) = 3 := by decide +kernel
    rw [h5] at h4
    have h6 : ∀ o ∈ exampleOps, (o.effect 0 = 3 → codePoint o.rune < 2048) := by
      intro o ho
      simp only [exampleOps, List.mem_cons, List.not_mem_nil, or_false] at ho
      rcases ho with rfl | rfl | rfl | rfl | rfl | rfl | rfl <;> decide +kernel
    unfold recorded at h4
    have e1 : codePoint (TableOp.set 10 3).rune = 10 := by decide +kernel
    have e2 : codePoint (TableOp.set 0x300 1).rune = 0x300 := by decide +kernel
    have e3 : codePoint (TableOp.bitwiseOr 0x300 0x40).rune = 0x300 := by decide +kernel
    have e4 : codePoint (TableOp.set 0x1F600 4).rune = 0x1F600 := by decide +kernel
    have e5 : codePoint (TableOp.set 0xD800 2).rune = 0xFFFD := by decide +kernel
    have e6 : codePoint (TableOp.bitwiseOr 0x1F600 0x20).rune = 0x1F600 := by decide +kernel
    have e7 : codePoint (TableOp.set 0x300 9).rune = 0x300 := by decide +kernel
    simp only [exampleOps, List.filter_cons, e1, e2, e3, e4, e5, e6, e7, List.filter_nil, beq_iff_eq,
      if_neg (show ¬ 10 = 64 * k + 10 by omega), if_neg (show ¬ 0x300 = 64 * k + 10 by omega),
      if_neg (show ¬ 0x1F600 = 64 * k + 10 by omega), if_neg (show ¬ 0xFFFD = 64 * k + 10 by omega), List.foldl_nil] at h4
    exact absurd h4 (by decide)

/-- The hypotheses of C31 and C32 are met. (For the operations that the shipped data gives they are met, too, and there
`outputIndices` succeeds as well: see C33.) -/
example : ∃ t raw, runOps newTree exampleOps = .ok t ∧ t.Compact = .ok raw := by
  obtain ⟨t, h, _⟩ := C30_recorded exampleOps exampleOps_ok
  obtain ⟨raw, hr⟩ := (C31_success exampleOps t h).mpr ⟨example_blocks, example_clash⟩
  exact ⟨t, raw, h, hr⟩

/-- An `AsciiClash`: only one character, of the second half of ASCII, has a property. -/
example : AsciiClash [.set 0x7F 3] :=
  ⟨fun h => by have := h 63 (by omega); revert this; decide +kernel, .inl (by
    intro j hj
    have e : codePoint (TableOp.set 0x7F 3).rune = 0x7F := by decide +kernel
    simp [recorded, List.filter_cons, e]
    rw [if_neg (by omega)]
    rfl)⟩

/-- **C32.** The compacted index is never longer than the capacity that was reserved for it, four times the length of the raw
index, so it is never reallocated. -/
theorem C32_capacity (ops : List TableOp) (t : Tree) (raw : RawPropertyTree)
    (h : runOps newTree ops = .ok t) (hc : t.Compact = .ok raw) : raw.Indices.length ≤ t.indices.length * 4 := by
  obtain ⟨IB, PB, hi⟩ := runOps_ok h
  obtain ⟨st, _, e, hl⟩ := compact_final hi hc
  subst e
  exact hl

/-- **C32.** Starting from every entry of the root block, every index refers to a block that exists. -/
theorem C32_references (ops : List TableOp) (t : Tree) (raw : RawPropertyTree)
    (h : runOps newTree ops = .ok t) (hc : t.Compact = .ok raw) (i : Nat) (hi : i < 64) :
    ∃ v, raw.Indices[i]? = some v ∧ Refers raw.Indices raw.Properties (indexLevels i) v.toNat := by
  obtain ⟨IB, PB, hinv⟩ := runOps_ok h
  obtain ⟨st, hf, e, _⟩ := compact_final hinv hc
  subst e
  obtain ⟨v, h1, h2⟩ := hf.found i hi
  exact ⟨v, h1, refers_of_reads (leafF_length _) (reads_of_find (leafF_length _) hf.sound h2)⟩

/-- **C32.** With the generated tables, `LookupFirstChar` never panics, whatever bytes it is given. -/
theorem C32_no_panic (ops : List TableOp) (t : Tree) (raw : RawPropertyTree) (tab : List UInt8)
    (h : runOps newTree ops = .ok t) (hc : t.Compact = .ok raw) (ho : outputIndices raw = .ok tab) (p : List UInt8) :
    ∃ r, LookupFirstCharIn (goIndex tab) (goIndex (outputProps raw)) p = .ok r := by
  obtain ⟨IB, PB, hi⟩ := runOps_ok h
  obtain ⟨st, hf, e, _⟩ := compact_final hi hc
  have hn := narrow_output ho
  subst e
  exact lookupIn_total hf hn p

end Textseg.Gen
