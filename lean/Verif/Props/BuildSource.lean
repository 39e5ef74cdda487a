import Verif.Proofs.MemBuildTree7
import Verif.Props.GenFiles
import Verif.Props.UcdSource
import Verif.Props.TableTest
import Verif.Proofs.GenMain
/-!
# C69: the source text of `BuildRawPropertyTree`, executed according to the language specification

The function `BuildRawPropertyTree` of `Model/GenTable.lean`, which C33 and C44 are about, was written down by hand after
gentable/generate.go:22-93. Here the text of that file and of the files it uses (ucdparse/ucd_scan.go, charprops/properties.go) is executed
by the interpreter of C67: opening three files, reading them to the end, recording the properties and compacting the table.
-/

namespace Textseg.Props
open Textseg Spec GoMem

/-- Not the end of the fuel. -/
def NoFuel {α : Type} (x : Go α) : Prop := x ≠ .error .outOfFuel

theorem NoFuel.bind {α β : Type} {x : Go α} {f : α → Go β} (hx : NoFuel x) (hf : ∀ a, NoFuel (f a)) : NoFuel (x >>= f) := by
  rcases x with e | a
  · intro h; exact hx (by cases h; rfl)
  · exact hf a

theorem NoFuel.ok {α : Type} (a : α) : NoFuel (.ok a : Go α) := fun h => nomatch h

section
open Gen
theorem noFuel_slice {α : Type} (p : List α) (lo hi : Nat) : NoFuel (goSlice p lo hi) := by
  unfold goSlice NoFuel; split <;> simp
theorem noFuel_sliceTo {α : Type} (p : List α) (hi : Nat) : NoFuel (goSliceTo p hi) := by
  unfold goSliceTo NoFuel; split <;> simp
theorem noFuel_propKey (b : List UInt8) : NoFuel (propertyBlockKey b) := by
  unfold propertyBlockKey NoFuel; split <;> simp
theorem noFuel_indexKey (b : List UInt16) : NoFuel (indexBlockKey b) := by
  unfold indexBlockKey NoFuel; split <;> simp
theorem noFuel_src {α : Type} (z : α) (b : List α) (i : UInt16) : NoFuel (srcBlock z b i) := by
  unfold srcBlock
  split
  · exact NoFuel.ok _
  · exact noFuel_slice _ _ _
theorem noFuel_fill (f : CState → UInt16 → Go (CState × UInt16)) (hf : ∀ st i, NoFuel (f st i)) : ∀ l st, NoFuel (fillBlock f st l)
  | [], _ => NoFuel.ok _
  | _ :: rest, st => (hf _ _).bind fun _ => (noFuel_fill f hf rest _).bind fun _ => NoFuel.ok _
theorem noFuel_build (t : Tree) : ∀ n a b st i, NoFuel (build t n a b st i)
  | 0, a, b, st, i => (noFuel_src _ _ _).bind fun _ => (noFuel_propKey _).bind fun _ => by split <;> exact NoFuel.ok _
  | n + 1, a, b, st, i => (noFuel_src _ _ _).bind fun _ => (noFuel_fill _ (noFuel_build t n b a) _ _).bind fun _ =>
      (noFuel_indexKey _).bind fun _ => by split <;> exact NoFuel.ok _
theorem noFuel_set {α : Type} (p : List α) (i : Nat) (v : α) : NoFuel (goSet p i v) := by
  unfold goSet NoFuel; split <;> simp
theorem noFuel_levels (i : Nat) : NoFuel (rootLevels i) := by
  unfold rootLevels NoFuel
  repeat' split
  all_goals simp
theorem noFuel_root (t : Tree) : ∀ src i st, NoFuel (rootLoop t i src st)
  | [], _, _ => NoFuel.ok _
  | _ :: rest, i, st => (noFuel_levels _).bind fun _ => (noFuel_build t _ _ _ _ _).bind fun _ =>
      ((noFuel_set _ _ _).bind fun _ => NoFuel.ok _).bind fun _ => noFuel_root t rest _ _
theorem noFuel_compact (t : Tree) : NoFuel t.Compact :=
  (noFuel_sliceTo _ _).bind fun _ => (noFuel_propKey _).bind fun _ => (noFuel_slice _ _ _).bind fun _ => (noFuel_propKey _).bind fun _ =>
    (noFuel_sliceTo _ _).bind fun _ => (noFuel_sliceTo _ _).bind fun _ => (noFuel_root _ _ _ _).bind fun _ => by
      split
      · intro h; cases h
      · exact NoFuel.ok _
end

section
variable {prog : Program} {m : Machine} {base : GoString}

theorem build_unique {i i' : List UInt16} {p p' : List UInt8} (h1 : BuildReturns prog m base i p) (h2 : BuildReturns prog m base i' p') :
    i = i' ∧ p = p' := by
  obtain ⟨b, h1⟩ := h1
  obtain ⟨b', h2⟩ := h2
  obtain ⟨v, h, e, r⟩ := h1 (b + b') (b + b') (by omega) (by omega)
  obtain ⟨v', h', e', r'⟩ := h2 (b + b') (b + b') (by omega) (by omega)
  rw [e] at e'
  cases e'
  exact isRaw_unique r r'

theorem build_not_fails {i : List UInt16} {p : List UInt8} {e : GoErr} (h1 : BuildReturns prog m base i p) (h2 : BuildFails prog m base e) : False := by
  obtain ⟨b, h1⟩ := h1
  obtain ⟨b', h2⟩ := h2
  obtain ⟨v, h, e, r⟩ := h1 (b + b') (b + b') (by omega) (by omega)
  obtain ⟨v', h', e', -⟩ := h2 (b + b') (b + b') (by omega) (by omega)
  rw [e] at e'
  cases e'

theorem build_not_panics {i : List UInt16} {p : List UInt8} (h1 : BuildReturns prog m base i p) (h2 : BuildPanics prog m base) : False := by
  obtain ⟨b, h1⟩ := h1
  obtain ⟨b', h2⟩ := h2
  obtain ⟨v, h, e, r⟩ := h1 (b + b') (b + b') (by omega) (by omega)
  obtain ⟨q, e'⟩ := h2 (b + b') (b + b') (by omega) (by omega)
  rw [e] at e'
  cases e'
end

section
variable (prog : Program) (hp : parseMem gentableSources = some prog) (m : Machine)
include hp

/-- **C69.** If one of the three files cannot be opened, the error of `os.Open` for the first of them that cannot is returned. -/
theorem C69_open (base : GoString) (n : Nat) (h : OpenFails m base n) : BuildFails prog m base (.os n) := by
  cases is_gentable hp
  have key : (∀ L d, R m L (d + 4) (.func (name! "gentable") (name! "BuildRawPropertyTree") [.str base]) heap0 =
      .ok ([.struct tRaw rawNil, .err (some (.os n))], heap0 ++ [.struct tRaw rawNil])) → BuildFails gentable m base (.os n) := by
    intro h
    refine ⟨4, fun L depth _ hd => ⟨_, heap0 ++ [.struct tRaw rawNil], ?_, isRaw_nil _⟩⟩
    rw [show depth = depth - 4 + 4 by omega, ← h L (depth - 4)]
    simp only [buildSession, bind_apply, init_gentable, bindR_ok]
    rfl
  cases h with
  | gbp h => exact key fun L d => prefix_err1 m L d base n h
  | emoji id1 h h' => exact key fun L d => prefix_err2 m L d base id1 n h h'
  | dcp id1 id2 h h' h'' => exact key fun L d => prefix_err3 m L d base id1 id2 n h h' h''

variable (hW : 32 ≤ m.W) {σ : Type} {read : Reader σ} {base : GoString} {id1 id2 id3 : Nat} {rd1 rd2 rd3 : σ}
  (ho : Opens m base id1 id2 id3) (s1 : Scans m id1 0 read (newScanner rd1 0)) (s2 : Scans m id2 0 read (newScanner rd2 0))
  (s3 : Scans m id3 0 read (newScanner rd3 0))
include hW ho s1 s2 s3

/-- **C69.** Whatever the files contain and however they are delivered: if the model returns a table, executing the source text returns
a `RawPropertyTree` with the same contents and no error; if the model returns an error in a file, executing the source text returns the
error for this file and an empty `RawPropertyTree` (it returns no other errors); if the model panics, executing the source text panics. -/
theorem C69_build (fuel : Nat) :
    match Gen.readTree read fuel rd1 rd2 rd3 with
    | .ok (.ok raw) => BuildReturns prog m base raw.Indices raw.Properties
    | .ok (.error (.reading file e)) => BuildFails prog m base (readingError m file e)
    | .ok (.error _) => False
    | .error q => q ≠ .outOfFuel → BuildPanics prog m base := by
  cases is_gentable hp
  exact buildTree_spec m hW read base id1 id2 id3 rd1 rd2 rd3 ho s1 s2 s3 fuel

/-- The same, without the names of the files. -/
theorem build_erased (fuel : Nat) :
    match Gen.BuildRawPropertyTree read fuel rd1 rd2 rd3 with
    | .ok (.ok raw) => BuildReturns prog m base raw.Indices raw.Properties
    | .ok (.error e) => ∃ file, BuildFails prog m base (readingError m file e)
    | .error q => q ≠ .outOfFuel → BuildPanics prog m base := by
  have h := C69_build prog hp m hW ho s1 s2 s3 fuel
  rw [Gen.readTree_erase]
  rcases hr : Gen.readTree read fuel rd1 rd2 rd3 with q | (e | raw)
  · rw [hr] at h; exact h
  · rw [hr] at h
    cases e with
    | reading file e => exact ⟨file, h⟩
    | os => exact h.elim
    | format => exact h.elim
  · rw [hr] at h; exact h

variable {fuel : Nat} {es1 es2 es3 : List FileEntry}

/-- **C69.** From complete data files, executing the source text returns a table exactly if the data has no conflict, concerns at most
1021 blocks of 64 characters outside ASCII, and the ASCII characters do not clash; otherwise it panics. -/
theorem C69_success (h1 : DataFile read rd1 .eof fuel es1 .complete) (h2 : DataFile read rd2 .eof fuel es2 .complete)
    (h3 : DataFile read rd3 .eof fuel es3 .complete) :
    let ops := fileOps LookupGCBProperty LookupInCBProperty es1 es2 es3
    (¬ Conflict ops ∧ AtMostBlocks ops 1021 ∧ ¬ AsciiClash ops → ∃ indices properties, BuildReturns prog m base indices properties) ∧
    (¬ (¬ Conflict ops ∧ AtMostBlocks ops 1021 ∧ ¬ AsciiClash ops) → BuildPanics prog m base) := by
  intro ops
  have hs := Gen.C44_success h1 h2 h3
  have hb := build_erased prog hp m hW ho s1 s2 s3 fuel
  have he := Gen.build_complete h1 h2 h3
  refine ⟨fun h => ?_, fun h => ?_⟩
  · obtain ⟨raw, hr⟩ := hs.mpr h
    rw [hr] at hb
    exact ⟨_, _, hb⟩
  · rcases hr : Gen.BuildRawPropertyTree read fuel rd1 rd2 rd3 with q | (e | raw)
    · rw [hr] at hb he
      refine hb ?_
      rintro rfl
      rcases Gen.runOps_new ops with ⟨_, hc⟩ | ⟨_, t, IB, PB, ht, hi⟩
      · rw [show fileOps LookupGCBProperty LookupInCBProperty es1 es2 es3 = ops from rfl, hc] at he
        cases he
      · rw [show fileOps LookupGCBProperty LookupInCBProperty es1 es2 es3 = ops from rfl, ht] at he
        exact ((noFuel_compact t).bind fun _ => NoFuel.ok _) he.symm
    · rw [hr] at he
      rcases Gen.runOps_new ops with ⟨_, hc⟩ | ⟨_, t, IB, PB, ht, hi⟩
      · rw [show fileOps LookupGCBProperty LookupInCBProperty es1 es2 es3 = ops from rfl, hc] at he
        cases he
      · rw [show fileOps LookupGCBProperty LookupInCBProperty es1 es2 es3 = ops from rfl, ht] at he
        simp only [bind, Except.bind] at he
        cases hc : t.Compact <;> rw [hc] at he <;> cases he
    · exact absurd (hs.mp ⟨raw, hr⟩) h

/-- **C69.** What the table says: if executing the source text on complete data files returns a table whose indices fit into a byte, then
looking up any character in it gives the properties that the files list for it. -/
theorem C69_lookup (h1 : DataFile read rd1 .eof fuel es1 .complete) (h2 : DataFile read rd2 .eof fuel es2 .complete)
    (h3 : DataFile read rd3 .eof fuel es3 .complete) (indices : List UInt16) (properties : List UInt8)
    (hr : BuildReturns prog m base indices properties) (hb : ∀ v ∈ indices, v.toNat < 256) (c : Char)
    (hc : c ≠ '\uFFFD' ∨ ∀ x ∈ es1 ++ es2 ++ es3, ∀ n, x.1 ≤ n → n ≤ x.2.1 → n.isValidChar) (rest : List UInt8) :
    LookupFirstCharIn (goIndex (indices.map fun v => v.toUInt8)) (goIndex properties) (String.utf8EncodeChar c ++ rest) =
      .ok (listedProps LookupGCBProperty LookupInCBProperty es1 es2 es3 c.val.toNat, (String.utf8EncodeChar c).length) := by
  have hs := Gen.C44_success h1 h2 h3
  by_cases hok : ∃ raw, Gen.BuildRawPropertyTree read fuel rd1 rd2 rd3 = .ok (.ok raw)
  · obtain ⟨raw, hraw⟩ := hok
    have hbd := build_erased prog hp m hW ho s1 s2 s3 fuel
    rw [hraw] at hbd
    obtain ⟨rfl, rfl⟩ := build_unique hr hbd
    refine Gen.C44_tables h1 h2 h3 raw _ hraw ?_ c hc rest
    unfold Gen.outputIndices
    rw [if_pos]
    rw [List.all_eq_true]
    intro v hv
    have := hb v hv
    simp only [decide_eq_true_eq, UInt16.le_iff_toNat_le]
    show v.toNat ≤ 255
    omega
  · exact (build_not_panics hr ((C69_success prog hp m hW ho s1 s2 s3 h1 h2 h3).2 fun h => hok (hs.mpr h))).elim

variable {E1 E2 E3 : IOErr} {fe1 fe2 fe3 : FileEnd}

/-- **C69.** If a file has a malformed line, or an overlong line, or cannot be read to its end, and the data does not conflict, then
executing the source text returns no table, and an error with the name of the first such file. -/
theorem C69_bad_file (h1 : DataFile read rd1 E1 fuel es1 fe1) (h2 : DataFile read rd2 E2 fuel es2 fe2)
    (h3 : DataFile read rd3 E3 fuel es3 fe3) (hc : ¬ Conflict (fileOps LookupGCBProperty LookupInCBProperty es1 es2 es3))
    (hbad : ¬ ((fe1 = .complete ∧ E1 = .eof) ∧ (fe2 = .complete ∧ E2 = .eof) ∧ (fe3 = .complete ∧ E3 = .eof))) :
    ∃ file e, FirstBad E1 E2 E3 fe1 fe2 fe3 (.reading file e) ∧ BuildFails prog m base (readingError m file e) := by
  obtain ⟨e, he, hf⟩ := Gen.readTree_bad h1 h2 h3 hc hbad
  have hb := C69_build prog hp m hW ho s1 s2 s3 fuel
  rw [he] at hb
  cases e with
  | reading file e => exact ⟨file, e, hf, hb⟩
  | os => exact hb.elim
  | format => exact hb.elim

/-- **C69.** From data files whose relevant entries are those of the Unicode 17 files, executing the source text returns exactly the
contents of the two tables that are committed. -/
theorem C69_shipped (h1 : DataFile read rd1 .eof fuel es1 .complete) (h2 : DataFile read rd2 .eof fuel es2 .complete)
    (h3 : DataFile read rd3 .eof fuel es3 .complete) (h : ShippedEntries es1 es2 es3) :
    ∃ indices properties, BuildReturns prog m base indices properties ∧ (∀ v ∈ indices, v.toNat < 256) ∧
      (∀ i, goIndex (indices.map fun v => v.toUInt8) i = lookupIndices.index i) ∧ ∀ i, goIndex properties i = lookupProps.index i := by
  obtain ⟨raw, tab, hr, ho', hi, hpp⟩ := Gen.C33_reproducible h1 h2 h3 h
  have hb := build_erased prog hp m hW ho s1 s2 s3 fuel
  rw [hr] at hb
  unfold Gen.outputIndices at ho'
  split at ho'
  · next hall =>
    cases ho'
    refine ⟨_, _, hb, ?_, hi, hpp⟩
    rw [List.all_eq_true] at hall
    intro v hv
    have := hall v hv
    simp only [decide_eq_true_eq, UInt16.le_iff_toNat_le] at this
    have h255 : (255 : UInt16).toNat = 255 := rfl
    omega
  · cases ho'

/-- **C69.** From the bytes of the three data files in the repository, in whatever portions they are read, executing the source text returns
exactly the contents of the two tables that are committed. -/
theorem C69_committed (hf : Gen.CommittedFiles read rd1 rd2 rd3 fuel) :
    ∃ indices properties, BuildReturns prog m base indices properties ∧ (∀ v ∈ indices, v.toNat < 256) ∧
      (∀ i, goIndex (indices.map fun v => v.toUInt8) i = lookupIndices.index i) ∧ ∀ i, goIndex properties i = lookupProps.index i := by
  obtain ⟨es1, es2, es3, hs, h1, h2, h3⟩ := hf.data
  exact C69_shipped prog hp m hW ho s1 s2 s3 h1 h2 h3 hs
end

/-- A machine on which three files can be opened, with the contents `f1`, `f2` and `f3`. -/
def machineWith (m : Machine) (f1 f2 f3 : List UInt8) : Machine :=
  let file : Nat → List UInt8 := fun id => if id = 1 then f1 else if id = 2 then f2 else f3
  { m with
    join := fun args => match args with
      | [_, .str a, .str _] => if a = str "auxiliary" then [1] else [2]
      | _ => [3]
    open_ := fun s => match s with
      | [b] => .ok b.toNat
      | _ => .error 2
    lines := fun id k => (scanResult bytesReader (newScanner (file id) 0) k).map fun r => if r.1 then some (r.2.Bytes.getD []) else none
    scanErr := fun id k => match scanResult bytesReader (newScanner (file id) 0) (k - 1) with
      | .ok r => r.2.Err
      | .error _ => none }

theorem opens_machineWith (m : Machine) (f1 f2 f3 : List UInt8) (base : GoString) : Opens (machineWith m f1 f2 f3) base 1 2 3 := ⟨rfl, rfl, rfl⟩

theorem scans_machineWith (m : Machine) (f1 f2 f3 : List UInt8) (id : Nat) :
    Scans (machineWith m f1 f2 f3) id 0 bytesReader (newScanner (if id = 1 then f1 else if id = 2 then f2 else f3) 0) where
  lines := fun k => by rw [Nat.zero_add]; rfl
  err := fun k r hr => by
    rw [Nat.zero_add]
    show (match scanResult bytesReader (newScanner (if id = 1 then f1 else if id = 2 then f2 else f3) 0) (k + 1 - 1) with
      | .ok r => r.2.Err
      | .error _ => none) = _
    rw [Nat.add_sub_cancel, hr]

/-- The hypotheses of C69 are met: by the files of the repository. Executing the source text on them returns the contents of the
committed tables. -/
example : ∃ indices properties,
    BuildReturns gentable (machineWith (exampleMachine 64 fun a b => 2 * a + b) (textFile Text.breakProperty.flatten)
      (textFile Text.emojiData.flatten) (textFile Text.derivedCore.flatten))
      (str "17.0.0/ucd") indices properties ∧ (∀ i, goIndex properties i = lookupProps.index i) := by
  have hf : Gen.CommittedFiles bytesReader (textFile Text.breakProperty.flatten) (textFile Text.emojiData.flatten) (textFile Text.derivedCore.flatten) _ :=
    ⟨bytesReader_delivers _, bytesReader_delivers _, bytesReader_delivers _, Nat.lt_succ_self _⟩
  generalize textFile Text.breakProperty.flatten = f1 at *
  generalize textFile Text.emojiData.flatten = f2 at *
  generalize textFile Text.derivedCore.flatten = f3 at *
  obtain ⟨i, p, k1, _, _, k2⟩ := C69_committed gentable C67_parsed (machineWith (exampleMachine 64 fun a b => 2 * a + b) f1 f2 f3) (by decide : 32 ≤ 64)
    (opens_machineWith _ _ _ _ _) (scans_machineWith _ f1 f2 f3 1) (scans_machineWith _ f1 f2 f3 2) (scans_machineWith _ f1 f2 f3 3) hf
  exact ⟨i, p, k1, k2⟩

/-- The hypothesis of `C69_open` is met: without files, the error for the first one is returned. -/
example : BuildFails gentable (exampleMachine 64 fun a b => 2 * a + b) (str "x") (.os 0) :=
  C69_open gentable C67_parsed _ _ 0 (.gbp _ rfl)

end Textseg.Props
