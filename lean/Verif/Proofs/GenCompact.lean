import Verif.Proofs.GenTree
/-!
# Compaction, as a function of the recorded properties

`cbuild` is `buildCompactedBlocks` with the source tree replaced by the recorded properties.
-/

namespace Textseg.Gen
open Textseg Spec

/-- The number of index levels below the first byte. -/
def lev (d : Nat) : Nat := if d < 32 then 0 else if d < 48 then 1 else 2

/-- `p` is a path after which `n` more levels of index blocks follow. -/
def LevelOK (n : Nat) : List Nat → Prop
  | [] => False
  | d :: rest => rest.length + n = lev d

theorem levelOK_root (d : Nat) : LevelOK (lev d) [d] := by simp [LevelOK]

theorem LevelOK.child {n : Nat} {p : List Nat} (h : LevelOK (n + 1) p) (d : Nat) : LevelOK n (p ++ [d]) := by
  cases p with
  | nil => exact h.elim
  | cons a p => simp only [LevelOK, List.cons_append, List.length_append, List.length_singleton] at h ⊢; omega

theorem pathOf_level {k : Nat} (h : k < 17408) : LevelOK 0 (pathOf k) := by
  rcases pathOf_cases k with ⟨_, e⟩ | ⟨_, _, e⟩ | ⟨_, e⟩ <;> rw [e] <;> simp only [LevelOK, lev, List.length]
  · rw [if_pos (by omega)]
  · rw [if_neg (by omega), if_pos (by omega)]
  · rw [if_neg (by omega), if_neg (by omega)]

theorem LevelOK.unique {n m : Nat} {p : List Nat} (h : LevelOK n p) (h' : LevelOK m p) : n = m := by
  cases p with
  | nil => exact h.elim
  | cons a p => simp only [LevelOK] at h h'; omega

theorem LevelOK.not_strict {p : List Nat} (h : LevelOK 0 p) : ¬ StrictPrefix p := by
  rintro ⟨k, x, s, _, h2, e⟩
  have h3 := pathOf_level h2
  rw [e] at h3
  cases p with
  | nil => exact h.elim
  | cons a p => simp only [LevelOK, List.cons_append, List.length_append, List.length_cons] at h h3; omega

theorem LevelOK.not_path {n : Nat} {p : List Nat} (h : LevelOK (n + 1) p) {k : Nat} (hk : k < 17408) : pathOf k ≠ p := by
  intro e
  have := pathOf_level hk
  rw [e] at this
  have := h.unique this
  omega

/-- The block of characters with a path. -/
def kOf (p : List Nat) : Option Nat :=
  match p with
  | [a] => if 2 ≤ a ∧ a < 32 then some a else none
  | [a, b] => if 32 ≤ a ∧ a < 48 ∧ b < 64 ∧ 32 ≤ (a - 32) * 64 + b then some ((a - 32) * 64 + b) else none
  | [a, b, c] =>
    if 48 ≤ a ∧ b < 64 ∧ c < 64 ∧ 1024 ≤ (a - 48) * 4096 + b * 64 + c ∧ (a - 48) * 4096 + b * 64 + c < 17408 then
      some ((a - 48) * 4096 + b * 64 + c) else none
  | _ => none

theorem kOf_some {p : List Nat} {k : Nat} (h : kOf p = some k) : 2 ≤ k ∧ k < 17408 ∧ pathOf k = p := by
  unfold kOf at h
  split at h
  case h_4 => exact absurd h (by simp)
  all_goals
    split at h
    · next hc =>
      simp only [Option.some.injEq] at h
      refine ⟨by omega, by omega, ?_⟩
      rcases pathOf_cases k with ⟨_, e⟩ | ⟨_, _, e⟩ | ⟨_, e⟩ <;> rw [e] <;> simp <;> omega
    · exact absurd h (by simp)

theorem kOf_pathOf {k : Nat} (h2 : 2 ≤ k) (hk : k < 17408) : kOf (pathOf k) = some k := by
  rcases pathOf_cases k with ⟨_, e⟩ | ⟨_, _, e⟩ | ⟨_, e⟩ <;> rw [e] <;> unfold kOf <;> simp only
  · rw [if_pos (by omega)]
  · rw [if_pos (by omega)]; congr 1; omega
  · rw [if_pos (by omega)]; congr 1; omega

/-- The 64 recorded properties from character `64 * k` on. -/
def blockF (F : Nat → UInt8) (k : Nat) : List UInt8 := (List.range 64).map fun j => F (64 * k + j)

/-- The recorded properties at a path, all zero if it is not the path of characters. -/
def leafF (F : Nat → UInt8) (p : List Nat) : List UInt8 :=
  match kOf p with
  | some k => blockF F k
  | none => List.replicate 64 0

theorem blockF_length (F k) : (blockF F k).length = 64 := by simp [blockF]

theorem leafF_length (F p) : (leafF F p).length = 64 := by
  unfold leafF; split
  · exact blockF_length _ _
  · simp

def ikey (block : List UInt16) : List UInt8 := block.flatMap fun (v : UInt16) => [v.toUInt8, (v >>> 8).toUInt8]

def cfill (f : CState → Nat → CState × UInt16) : CState → List Nat → CState × List UInt16
  | st, [] => (st, [])
  | st, d :: ds => ((cfill f (f st d).1 ds).1, (f st d).2 :: (cfill f (f st d).1 ds).2)

def addLeaf (w : Which) (st : CState) (block : List UInt8) : CState × UInt16 :=
  match (st.getMap w).get block with
  | some i => (st, i)
  | none =>
    (({ st with props := st.props ++ block }).putMap w block (UInt16.ofNat (st.props.length >>> 6)),
      UInt16.ofNat (st.props.length >>> 6))

def addIndex (w : Which) (st : CState) (block : List UInt16) : CState × UInt16 :=
  match (st.getMap w).get (ikey block) with
  | some i => (st, i)
  | none =>
    ((st.appendIndices block).putMap w (ikey block) (UInt16.ofNat (st.indices.length >>> 6)),
      UInt16.ofNat (st.indices.length >>> 6))

def cbuild (L : List Nat → List UInt8) : Nat → Which → Which → CState → List Nat → CState × UInt16
  | 0, propW, _, st, p => addLeaf propW st (L p)
  | n + 1, propW, indexW, st, p =>
    addIndex indexW (cfill (fun st d => cbuild L n indexW propW st (p ++ [d])) st (List.range 64)).1
      (cfill (fun st d => cbuild L n indexW propW st (p ++ [d])) st (List.range 64)).2

theorem cfill_length (f) (st) (ds : List Nat) : (cfill f st ds).2.length = ds.length := by
  induction ds generalizing st with
  | nil => rfl
  | cons d ds ih => simp [cfill, ih]

theorem indexBlockKey_ok {block : List UInt16} (h : block.length = 64) : indexBlockKey block = .ok (ikey block) := by
  unfold indexBlockKey ikey
  rw [if_neg (by simp [h])]

theorem propertyBlockKey_ok {block : List UInt8} (h : block.length = 64) : propertyBlockKey block = .ok block := by
  unfold propertyBlockKey
  rw [if_neg (by simp [h])]

theorem srcBlock_ok {α : Type} (zero : α) (blocks : List α) (v : UInt16) (h0 : v.toNat ≠ 0) (h1 : v.toNat ≤ 1022)
    (h2 : 64 * (v.toNat + 1) ≤ blocks.length) :
    srcBlock zero blocks v = .ok ((blocks.take (64 * v.toNat + 64)).drop (64 * v.toNat)) := by
  unfold srcBlock
  rw [if_neg (fun e => h0 (u16_toNat_zero.mp e))]
  have e1 : (v <<< 6).toNat = 64 * v.toNat := by
    rw [UInt16.toNat_shiftLeft]
    show v.toNat <<< 6 % 65536 = _
    rw [shl6]
    omega
  have e2 : (v <<< 6 + 64).toNat = 64 * v.toNat + 64 := by
    rw [UInt16.toNat_add, e1]
    show (64 * v.toNat + 64) % 65536 = _
    omega
  simp only [e1, e2]
  unfold goSlice
  rw [if_pos (by omega)]

theorem slice_eq {α : Type} {l : List α} {v : Nat} {g : Nat → α} (h : ∀ j, j < 64 → l[64 * v + j]? = some (g j)) :
    (l.take (64 * v + 64)).drop (64 * v) = (List.range 64).map g := by
  apply List.ext_getElem?
  intro j
  rw [List.getElem?_drop, List.getElem?_take]
  by_cases hj : j < 64
  · rw [if_pos (by omega), h j hj]
    simp [hj]
  · rw [if_neg (by omega), List.getElem?_eq_none (by simp; omega)]

theorem SlotOK.zero_leaf {t IB PB F} (h : Inv t IB PB F) {p : List Nat} (hs : SlotOK IB PB p 0) :
    leafF F p = List.replicate 64 0 := by
  unfold leafF
  cases hk : kOf p with
  | none => rfl
  | some k =>
    obtain ⟨h2, hlt, e⟩ := kOf_some hk
    have hnot : k ∉ PB := by
      rw [← e] at hs
      rcases hs.path h with ⟨_, h1⟩ | ⟨h1, _⟩
      · exact h1 h2
      · omega
    show (List.range 64).map _ = _
    apply List.ext_getElem?
    intro j
    by_cases hj : j < 64
    · simp only [List.getElem?_map, List.getElem?_range hj, Option.map_some]
      rw [h.rest _ (by rw [show (64 * k + j) / 64 = k by omega]; exact hnot), List.getElem?_replicate, if_pos hj]
    · rw [List.getElem?_eq_none (by simp; omega), List.getElem?_eq_none (by simp; omega)]

theorem SlotOK.zero_child {t IB PB F} (h : Inv t IB PB F) {p : List Nat} {n : Nat} (hl : LevelOK (n + 1) p)
    (hs : SlotOK IB PB p 0) (d : Nat) : SlotOK IB PB (p ++ [d]) 0 := by
  have hp : p ∉ IB := by
    rcases hs with ⟨_, h1, _⟩ | h1 | ⟨k, h2, h1, _⟩
    · exact h1
    · rw [h.head] at h1
      simp at h1
      subst h1
      exact hl.elim
    · rw [h.ascii0] at h1
      simp at h1
      omega
  exact .inl ⟨rfl, fun hm => hp (h.parentI _ _ hm), fun k hk h2 e => hp (h.parentP _ _ _ hk h2 e)⟩

theorem fillBlock_eq {f : CState → UInt16 → Go (CState × UInt16)} {g : CState → Nat → CState × UInt16} (bs : List UInt16) :
    ∀ (s : Nat) (st : CState) (_ : ∀ i v st, bs[i]? = some v → f st v = .ok (g st (s + i))),
    fillBlock f st bs = .ok (cfill g st (List.range' s bs.length)) := by
  induction bs with
  | nil => intro s st _; rfl
  | cons v bs ih =>
    intro s st hf
    unfold fillBlock
    rw [hf 0 v st rfl]
    simp only [bind, Except.bind]
    rw [ih (s + 1) _ (fun i v st hi => by
      rw [hf (i + 1) v st (by simpa using hi)]
      rw [show s + (i + 1) = s + 1 + i by omega])]
    rfl

theorem build_eq {t IB PB F} (h : Inv t IB PB F) (hP : PB.length ≤ 1023) : ∀ (n : Nat) (pw iw : Which) (st : CState)
    (v : UInt16) (p : List Nat) (_ : LevelOK n p) (_ : SlotOK IB PB p v.toNat),
    build t n pw iw st v = .ok (cbuild (leafF F) n pw iw st p) := by
  intro n
  induction n with
  | zero =>
    intro pw iw st v p hl hs
    have hb : srcBlock 0 t.rawProps v = .ok (leafF F p) := by
      by_cases h0 : v.toNat = 0
      · rw [h0] at hs
        rw [hs.zero_leaf h]
        unfold srcBlock
        rw [if_pos (u16_toNat_zero.mpr h0)]
      · rcases hs with ⟨h1, _⟩ | h1 | ⟨k, h2, h1, e⟩
        · exact absurd h1 h0
        · exact absurd (h.prefixI _ (List.mem_of_getElem? h1)) hl.not_strict
        · have hil := (List.getElem?_eq_some_iff.mp h1).1
          rw [srcBlock_ok _ _ _ h0 (by omega) (by rw [h.lenP]; omega), slice_eq (fun j hj => h.vals _ k j h1 hj)]
          unfold leafF
          rw [← e, kOf_pathOf h2 (h.rangeP _ (List.mem_of_getElem? h1))]
          rfl
    unfold build buildLeaf cbuild addLeaf
    simp only [hb, propertyBlockKey_ok (leafF_length F p), bind, Except.bind]
    split <;> simp [*]
  | succ n ih =>
    intro pw iw st v p hl hs
    have hfill : ∃ block, srcBlock 0 t.indices v = .ok block ∧ block.length = 64 ∧
        ∀ d w, block[d]? = some w → SlotOK IB PB (p ++ [d]) w.toNat := by
      by_cases h0 : v.toNat = 0
      · rw [h0] at hs
        refine ⟨List.replicate 64 0, ?_, by simp, ?_⟩
        · unfold srcBlock
          rw [if_pos (u16_toNat_zero.mpr h0)]
        · intro d w hw
          rw [List.getElem?_replicate] at hw
          split at hw
          · simp only [Option.some.injEq] at hw
            subst hw
            exact hs.zero_child h hl d
          · exact absurd hw (by simp)
      · rcases hs with ⟨h1, _⟩ | h1 | ⟨k, h2, h1, e⟩
        · exact absurd h1 h0
        · have hil := (List.getElem?_eq_some_iff.mp h1).1
          have hlen := h.lengthI
          refine ⟨_, srcBlock_ok _ _ _ h0 (by omega) (by rw [h.lenI]; omega), ?_, ?_⟩
          · have := h.lenI
            simp; omega
          · intro d w hw
            rw [List.getElem?_drop, List.getElem?_take] at hw
            split at hw
            · obtain ⟨w', hw', hs'⟩ := h.slots _ _ d h1 (by omega)
              rw [hw] at hw'
              simp only [Option.some.injEq] at hw'
              subst hw'
              exact hs'
            · exact absurd hw (by simp)
        · exact absurd e (hl.not_path (h.rangeP _ (List.mem_of_getElem? h1)))
    obtain ⟨block, e1, e2, e3⟩ := hfill
    have e4 := fillBlock_eq (f := build t n iw pw) (g := fun st d => cbuild (leafF F) n iw pw st (p ++ [d])) block 0 st
      (fun i w st hi => by
        rw [Nat.zero_add]
        exact ih iw pw st w (p ++ [i]) (hl.child i) (e3 i w hi))
    rw [e2, ← List.range_eq_range'] at e4
    unfold build cbuild addIndex
    simp only [e1, e4, bind, Except.bind]
    rw [indexBlockKey_ok (by rw [cfill_length]; simp)]
    simp only
    split <;> simp [*]

end Textseg.Gen
