import Verif.Proofs.GenData
import Verif.Proofs.GenShipped
import Verif.Proofs.Disjoint
import Verif.Proofs.Consistent
/-!
# The generator on the Unicode 17 data files
-/

namespace Textseg.Gen
open Textseg Spec Scanner

/-! ## Checks of the data -/

def scalarB {α : Type} : List (Nat × Nat × α) → Bool
  | [] => true
  | r :: rs => cond (Nat.ble r.2.1 0xD7FF) (scalarB rs) (cond (Nat.ble 0xE000 r.1) (cond (Nat.ble r.2.1 0x10FFFF) (scalarB rs) false) false)

theorem scalarB_sound {α : Type} {rs : List (Nat × Nat × α)} (h : scalarB rs = true) {r} (hr : r ∈ rs) {n : Nat} (h1 : r.1 ≤ n)
    (h2 : n ≤ r.2.1) : n.isValidChar := by
  induction rs with
  | nil => cases hr
  | cons a rs ih =>
    rw [scalarB] at h
    have tl : scalarB rs = true := by
      revert h
      cases Nat.ble a.2.1 0xD7FF <;> cases Nat.ble 0xE000 a.1 <;> cases Nat.ble a.2.1 0x10FFFF <;> simp
    rcases List.mem_cons.mp hr with rfl | hr
    · unfold Nat.isValidChar
      cases hb : Nat.ble r.2.1 0xD7FF
      · cases hb2 : Nat.ble 0xE000 r.1
        · rw [hb, hb2] at h; cases h
        · cases hb3 : Nat.ble r.2.1 0x10FFFF
          · rw [hb, hb2, hb3] at h; cases h
          · have := Nat.ble_eq.mp hb2
            have := Nat.ble_eq.mp hb3
            omega
      · have := Nat.ble_eq.mp hb
        omega
    · exact ih tl hr

theorem gcb_scalar : scalarB graphemeBreakProperty = true := by decide +kernel
theorem pict_scalar : scalarB extendedPictographic = true := by decide +kernel
theorem incb_scalar : scalarB indicConjunctBreak = true := by decide +kernel

def sortedB {α : Type} (m : Nat) : List (Nat × Nat × α) → Bool
  | [] => true
  | r :: rs => cond (Nat.ble m r.1) (cond (Nat.ble r.1 r.2.1) (sortedB (Nat.succ r.2.1) rs) false) false

theorem sortedB_lower {α : Type} {m : Nat} {rs : List (Nat × Nat × α)} (h : sortedB m rs = true) : ∀ r ∈ rs, m ≤ r.1 := by
  induction rs generalizing m with
  | nil => simp
  | cons a rs ih =>
    rw [sortedB] at h
    cases hb : Nat.ble m a.1
    · rw [hb] at h; cases h
    · rw [hb, cond_true] at h
      cases hb2 : Nat.ble a.1 a.2.1
      · rw [hb2] at h; cases h
      · rw [hb2, cond_true] at h
        have h1 := Nat.ble_eq.mp hb
        have h2 := Nat.ble_eq.mp hb2
        intro r hr
        rcases List.mem_cons.mp hr with rfl | hr
        · exact h1
        · have := ih h r hr
          omega

theorem sortedB_sound {α : Type} {m : Nat} {rs : List (Nat × Nat × α)} (h : sortedB m rs = true) :
    rs.Pairwise (fun r r' => r.2.1 < r'.1) := by
  induction rs generalizing m with
  | nil => exact .nil
  | cons a rs ih =>
    rw [sortedB] at h
    cases hb : Nat.ble m a.1
    · rw [hb] at h; cases h
    · rw [hb, cond_true] at h
      cases hb2 : Nat.ble a.1 a.2.1
      · rw [hb2] at h; cases h
      · rw [hb2, cond_true] at h
        refine .cons (fun r hr => ?_) (ih h)
        exact sortedB_lower h r hr

theorem pict_sorted : sortedB 0 extendedPictographic = true := by decide +kernel

/-- Intervals of blocks that contain all ranges. -/
def blockIntervals : List (Nat × Nat) :=
  [(0, 2), (12, 77), (92, 119), (128, 164), (172, 183), (192, 194), (202, 202), (665, 863), (1004, 1004), (1016, 1023), (1031, 1037),
   (1064, 1067), (1076, 1149), (1232, 1233), (1412, 1412), (1451, 1452), (1461, 1461), (1469, 1471), (1778, 1778), (1852, 1853),
   (1861, 1865), (1896, 1898), (1920, 1931), (1939, 1947), (1955, 1957), (1984, 2047), (14336, 14399)]

def inIntervals (lo hi : Nat) : List (Nat × Nat) → Bool
  | [] => false
  | i :: is => cond (Nat.ble (Nat.mul 64 i.1) lo) (cond (Nat.ble hi (Nat.add (Nat.mul 64 i.2) 63)) true (inIntervals lo hi is)) (inIntervals lo hi is)

def blocksB {α : Type} : List (Nat × Nat × α) → Bool
  | [] => true
  | r :: rs => cond (inIntervals r.1 r.2.1 blockIntervals) (blocksB rs) false

def intervalBlocks (is : List (Nat × Nat)) : List Nat := is.flatMap fun i => List.range' i.1 (i.2 + 1 - i.1)

theorem inIntervals_sound {lo hi n : Nat} (h1 : lo ≤ n) (h2 : n ≤ hi) : ∀ {is}, inIntervals lo hi is = true →
    n / 64 ∈ intervalBlocks is := by
  intro is
  induction is with
  | nil => intro h; cases h
  | cons i is ih =>
    intro h
    unfold intervalBlocks
    rw [List.flatMap_cons, List.mem_append]
    rw [inIntervals] at h
    cases hb : Nat.ble (Nat.mul 64 i.1) lo
    · rw [hb] at h; exact .inr (ih h)
    · rw [hb, cond_true] at h
      cases hb2 : Nat.ble hi (Nat.add (Nat.mul 64 i.2) 63)
      · rw [hb2] at h; exact .inr (ih h)
      · left
        have h3 : 64 * i.1 ≤ lo := Nat.ble_eq.mp hb
        have h4 : hi ≤ 64 * i.2 + 63 := Nat.ble_eq.mp hb2
        rw [List.mem_range'_1]
        omega

theorem blocksB_sound {α : Type} {rs : List (Nat × Nat × α)} (h : blocksB rs = true) {r} (hr : r ∈ rs) {n : Nat} (h1 : r.1 ≤ n)
    (h2 : n ≤ r.2.1) : n / 64 ∈ intervalBlocks blockIntervals := by
  induction rs with
  | nil => cases hr
  | cons a rs ih =>
    rw [blocksB] at h
    cases hb : inIntervals a.1 a.2.1 blockIntervals
    · rw [hb] at h; cases h
    · rw [hb, cond_true] at h
      rcases List.mem_cons.mp hr with rfl | hr
      · exact inIntervals_sound h1 h2 hb
      · exact ih h hr

theorem gcb_blocks : blocksB graphemeBreakProperty = true := by decide +kernel
theorem pict_blocks : blocksB extendedPictographic = true := by decide +kernel
theorem incb_blocks : blocksB indicConjunctBreak = true := by decide +kernel
theorem intervalBlocks_length : (intervalBlocks blockIntervals).length ≤ 1021 := by decide +kernel

theorem lf_check : (graphemeBreakProperty.all fun r => match r.2.2 with | .LF => Nat.beq r.2.1 10 | _ => true) = true := by decide +kernel

theorem lf_only {c : Nat} (h : (ucd c).gcb = .LF) : c ≤ 10 := by
  unfold ucd at h
  simp only at h
  cases hl : lookupRange c graphemeBreakProperty with
  | none => rw [hl] at h; cases h
  | some g =>
    rw [hl] at h
    simp only [Option.getD_some] at h
    subst h
    have : ∀ rs : List (Nat × Nat × GCB), lookupRange c rs = some .LF → ∃ r ∈ rs, r.2.2 = .LF ∧ c ≤ r.2.1 := by
      intro rs
      induction rs with
      | nil => intro h; cases h
      | cons a rs ih =>
        obtain ⟨lo, hi, v⟩ := a
        rw [lookupRange]
        split
        · next hc => intro h; exact ⟨_, List.mem_cons_self, by simpa using h, hc.2⟩
        · intro h
          obtain ⟨r, h1, h2⟩ := ih h
          exact ⟨r, List.mem_cons_of_mem _ h1, h2⟩
    obtain ⟨r, h1, h2, h3⟩ := this _ hl
    have := List.all_eq_true.mp lf_check r h1
    simp only [h2] at this
    have := Nat.eq_of_beq_eq_true this
    omega

/-! ## The entries -/

theorem ascii_gcb (g : GCB) : LookupGCBProperty (ascii g.ucdName) = gcbCode g := by cases g <;> decide +kernel
theorem ascii_incbName (g : InCB) : LookupInCBProperty (ascii g.ucdName) = incbCode g := by cases g <;> decide +kernel

def pictEntry (x : FileEntry) : Bool := x.2.2.head? == some (ascii "Extended_Pictographic")
def incbEntry (x : FileEntry) : Bool := x.2.2.head? == some (ascii "InCB")

theorem emojiOps_filter (es : List FileEntry) : es.flatMap emojiOps = (es.filter pictEntry).flatMap emojiOps := by
  induction es with
  | nil => rfl
  | cons x es ih =>
    rw [List.flatMap_cons, List.filter_cons, ih]
    split
    · rfl
    · next h =>
      have : emojiOps x = [] := by
        unfold emojiOps
        rcases hl : x.2.2 with _ | ⟨n, ns⟩
        · rfl
        · simp only
          rw [if_neg]
          intro e
          apply h
          simp [pictEntry, hl, e]
      rw [this]
      rfl

theorem incbOps_filter (code : List UInt8 → UInt8) (es : List FileEntry) : es.flatMap (incbOps code) = (es.filter incbEntry).flatMap (incbOps code) := by
  induction es with
  | nil => rfl
  | cons x es ih =>
    rw [List.flatMap_cons, List.filter_cons, ih]
    split
    · rfl
    · next h =>
      have : incbOps code x = [] := by
        unfold incbOps
        rcases hl : x.2.2 with _ | ⟨n, _ | ⟨m, ns⟩⟩
        · rfl
        · rfl
        · simp only
          rw [if_neg]
          intro e
          apply h
          simp [incbEntry, hl, e]
      rw [this]
      rfl

/-- The relevant entries. -/
structure Relevant (es1 es2 es3 : List FileEntry) : Prop where
  gcb : es1.map (fun x => (x.1, x.2.1, x.2.2.head?)) =
    graphemeBreakProperty.map fun r => (r.1, r.2.1, some (ascii r.2.2.ucdName))
  pict : es2.map (fun x => (x.1, x.2.1)) = extendedPictographic.map fun r => (r.1, r.2.1)
  incb : es3.map (fun x => (x.1, x.2.1, x.2.2[1]?)) =
    indicConjunctBreak.map fun r => (r.1, r.2.1, some (ascii r.2.2.ucdName))
  pictE : ∀ x ∈ es2, pictEntry x = true
  incbE : ∀ x ∈ es3, incbEntry x = true

theorem relevant_of {es1 es2 es3 : List FileEntry} (h : ShippedEntries es1 es2 es3) :
    Relevant es1 (es2.filter pictEntry) (es3.filter incbEntry) where
  gcb := h.gcb
  pict := h.pict
  incb := h.incb
  pictE := fun _ hx => (List.mem_filter.mp hx).2
  incbE := fun _ hx => (List.mem_filter.mp hx).2

/-- From an entry to the data and back. -/
theorem mem_data {α β : Type} {f : FileEntry → β} {k : α → β} {es : List FileEntry} {data : List (Nat × Nat × α)}
    (h : es.map (fun x => (x.1, x.2.1, f x)) = data.map fun r => (r.1, r.2.1, k r.2.2)) {x} (hx : x ∈ es) :
    ∃ r ∈ data, r.1 = x.1 ∧ r.2.1 = x.2.1 ∧ k r.2.2 = f x := by
  have : (x.1, x.2.1, f x) ∈ data.map fun r => (r.1, r.2.1, k r.2.2) := by
    rw [← h]; exact List.mem_map.mpr ⟨x, hx, rfl⟩
  obtain ⟨r, hr, e⟩ := List.mem_map.mp this
  simp only [Prod.mk.injEq] at e
  exact ⟨r, hr, e.1, e.2.1, e.2.2⟩

theorem mem_entries {α β : Type} {f : FileEntry → β} {k : α → β} {es : List FileEntry} {data : List (Nat × Nat × α)}
    (h : es.map (fun x => (x.1, x.2.1, f x)) = data.map fun r => (r.1, r.2.1, k r.2.2)) {r} (hr : r ∈ data) :
    ∃ x ∈ es, r.1 = x.1 ∧ r.2.1 = x.2.1 ∧ k r.2.2 = f x := by
  have : (r.1, r.2.1, k r.2.2) ∈ es.map (fun x => (x.1, x.2.1, f x)) := by
    rw [h]; exact List.mem_map.mpr ⟨r, hr, rfl⟩
  obtain ⟨x, hx, e⟩ := List.mem_map.mp this
  simp only [Prod.mk.injEq] at e
  exact ⟨x, hx, e.1.symm, e.2.1.symm, e.2.2.symm⟩

theorem covers_iff {x : FileEntry} {c : Nat} : x.covers c = true ↔ x.1 ≤ c ∧ c ≤ x.2.1 := by
  simp [FileEntry.covers]

variable {es1 es2 es3 : List FileEntry}

theorem Relevant.pict' (h : Relevant es1 es2 es3) : es2.map (fun x => (x.1, x.2.1, ())) =
    extendedPictographic.map fun r => (r.1, r.2.1, (fun _ => ()) r.2.2) := by
  have := congrArg (List.map fun p : Nat × Nat => (p.1, p.2, ())) h.pict
  simpa [List.map_map, Function.comp_def] using this

theorem gcb_listed (h : Relevant es1 es2 es3) (c : Nat) :
    ((gcbListed es1 c).map LookupGCBProperty).getD 0 = gcbCode (ucd c).gcb := by
  unfold gcbListed ucd
  simp only
  cases hg : (es1.filter fun x => x.covers c).getLast? with
  | none =>
    have hn : es1.filter (fun x => x.covers c) = [] := List.getLast?_eq_none_iff.mp hg
    rw [lookupRange_none (fun lo hi v hm hc => ?_)]
    · rfl
    · obtain ⟨x, hx, e1, e2, _⟩ := mem_entries (k := fun (g : GCB) => some (ascii g.ucdName)) h.gcb hm
      simp only at e1 e2
      have : x ∈ es1.filter (fun x => x.covers c) := List.mem_filter.mpr ⟨hx, covers_iff.mpr (by omega)⟩
      rw [hn] at this
      cases this
  | some x =>
    obtain ⟨hx, hc⟩ := List.mem_filter.mp (List.mem_of_getLast? hg)
    have hc := covers_iff.mp hc
    obtain ⟨⟨lo, hi, g⟩, hr, e1, e2, e3⟩ := mem_data (k := fun (g : GCB) => some (ascii g.ucdName)) h.gcb hx
    simp only at e1 e2 e3
    rw [lookupRange_of_mem gcb_disjoint hr (by omega) (by omega)]
    simp only [Option.bind_some]
    rw [← e3]
    simp only [Option.map_some, Option.getD_some]
    exact ascii_gcb g

theorem pict_listed (h : Relevant es1 es2 es3) (c : Nat) : pictListed es2 c = (ucd c).extPict := by
  unfold pictListed ucd
  simp only
  rw [Bool.eq_iff_iff, List.any_eq_true, lookupRange_isSome]
  constructor
  · rintro ⟨x, hx, hc⟩
    rw [Bool.and_eq_true] at hc
    have hc := covers_iff.mp hc.1
    obtain ⟨⟨lo, hi, u⟩, hr, e1, e2, _⟩ := mem_data (f := fun _ => ()) (k := fun _ => ()) h.pict' hx
    simp only at e1 e2
    exact ⟨lo, hi, hr, by omega, by omega⟩
  · rintro ⟨lo, hi, hr, h1, h2⟩
    obtain ⟨x, hx, e1, e2, _⟩ := mem_entries (f := fun _ => ()) (k := fun _ => ()) h.pict' hr
    simp only at e1 e2
    refine ⟨x, hx, ?_⟩
    rw [covers_iff.mpr (by omega), Bool.true_and]
    exact h.pictE x hx

theorem fold_same {l : List UInt8} {v : UInt8} (h : ∀ a ∈ l, a = v) (hne : l ≠ []) : l.foldl (· ||| ·) 0 = v := by
  have key : ∀ l : List UInt8, (∀ a ∈ l, a = v) → l.foldl (· ||| ·) v = v := by
    intro l
    induction l with
    | nil => intro _; rfl
    | cons a l ih =>
      intro h
      rw [List.foldl_cons, h a List.mem_cons_self, UInt8.or_self]
      exact ih fun b hb => h b (List.mem_cons_of_mem _ hb)
  cases l with
  | nil => exact absurd rfl hne
  | cons a l =>
    rw [List.foldl_cons, h a List.mem_cons_self, UInt8.zero_or]
    exact key l fun b hb => h b (List.mem_cons_of_mem _ hb)

theorem incb_listed (h : Relevant es1 es2 es3) (c : Nat) :
    ((incbListed es3 c).map LookupInCBProperty).foldl (· ||| ·) 0 = incbCode (ucd c).incb := by
  have key : ∀ n ∈ incbListed es3 c, ∃ g, lookupRange c indicConjunctBreak = some g ∧ n = ascii g.ucdName := by
    intro n hn
    unfold incbListed at hn
    obtain ⟨x, hx, e⟩ := List.mem_filterMap.mp hn
    obtain ⟨hx, hc⟩ := List.mem_filter.mp hx
    rw [Bool.and_eq_true] at hc
    have hc := covers_iff.mp hc.1
    obtain ⟨⟨lo, hi, g⟩, hr, e1, e2, e3⟩ := mem_data (k := fun (g : InCB) => some (ascii g.ucdName)) h.incb hx
    simp only at e1 e2 e3
    refine ⟨g, lookupRange_of_mem incb_disjoint hr (by omega) (by omega), ?_⟩
    rw [e] at e3
    exact (Option.some.inj e3).symm
  unfold ucd
  simp only
  cases hl : incbListed es3 c with
  | nil =>
    rw [lookupRange_none (fun lo hi v hm hc => ?_)]
    · rfl
    · obtain ⟨x, hx, e1, e2, e3⟩ := mem_entries (k := fun (g : InCB) => some (ascii g.ucdName)) h.incb hm
      simp only at e1 e2 e3
      have : ascii v.ucdName ∈ incbListed es3 c := by
        unfold incbListed
        refine List.mem_filterMap.mpr ⟨x, List.mem_filter.mpr ⟨hx, ?_⟩, e3.symm⟩
        rw [covers_iff.mpr (by omega), Bool.true_and]
        exact h.incbE x hx
      rw [hl] at this
      cases this
  | cons n ns =>
    obtain ⟨g, hg, e⟩ := key n (by rw [hl]; exact List.mem_cons_self)
    rw [hg]
    simp only [Option.getD_some]
    apply fold_same
    · intro a ha
      obtain ⟨n', hn', rfl⟩ := List.mem_map.mp ha
      obtain ⟨g', hg', e'⟩ := key n' (by rw [hl]; exact hn')
      rw [hg] at hg'
      obtain rfl := Option.some.inj hg'
      rw [e']
      exact ascii_incbName g
    · simp

theorem Relevant.exact1 (h : Relevant es1 es2 es3) (c : Nat) : ∀ x ∈ es1, Exact c x := by
  intro x hx
  obtain ⟨r, hr, e1, e2, _⟩ := mem_data (k := fun (g : GCB) => some (ascii g.ucdName)) h.gcb hx
  exact exact_of_scalar c fun n h1 h2 => scalarB_sound gcb_scalar hr (by omega) (by omega)

theorem Relevant.exact2 (h : Relevant es1 es2 es3) (c : Nat) : ∀ x ∈ es2, Exact c x := by
  intro x hx
  obtain ⟨r, hr, e1, e2, _⟩ := mem_data (f := fun _ => ()) (k := fun _ => ()) h.pict' hx
  exact exact_of_scalar c fun n h1 h2 => scalarB_sound pict_scalar hr (by omega) (by omega)

theorem Relevant.exact3 (h : Relevant es1 es2 es3) (c : Nat) : ∀ x ∈ es3, Exact c x := by
  intro x hx
  obtain ⟨r, hr, e1, e2, _⟩ := mem_data (k := fun (g : InCB) => some (ascii g.ucdName)) h.incb hx
  exact exact_of_scalar c fun n h1 h2 => scalarB_sound incb_scalar hr (by omega) (by omega)

theorem Relevant.fields (h : Relevant es1 es2 es3) : ∀ x ∈ es1, x.2.2 ≠ [] := by
  intro x hx e
  obtain ⟨r, hr, e1, e2, e3⟩ := mem_data (k := fun (g : GCB) => some (ascii g.ucdName)) h.gcb hx
  rw [e] at e3
  cases e3

theorem listed_eq (h : Relevant es1 es2 es3) (c : Nat) :
    listedProps LookupGCBProperty LookupInCBProperty es1 es2 es3 c = ucdByte c := by
  unfold listedProps ucdByte pack MakeCharProperties
  rw [gcb_listed h, pict_listed h, incb_listed h]
  cases hp : (ucd c).extPict
  · simp [GCBNone]
  · have := ((ucd_consistent c).pict hp).1
    rw [this]
    rfl

theorem recorded_eq (h : Relevant es1 es2 es3) : recorded (fileOps LookupGCBProperty LookupInCBProperty es1 es2 es3) = ucdByte := by
  funext c
  rw [recorded_files _ _ (h.exact1 c) (h.exact2 c) (h.exact3 c) h.fields, listed_eq h]

/-! ## There is no conflict -/

theorem mem_forEach {op : Rune → TableOp} {x : FileEntry} {o : TableOp} (h : o ∈ forEach op x) :
    ∃ n, x.1 ≤ n ∧ n ≤ x.2.1 ∧ o = op (Int32.ofNat n) := by
  obtain ⟨i, hi, e⟩ := List.mem_map.mp h
  have := List.mem_range.mp hi
  exact ⟨x.1 + i, by omega, by omega, e.symm⟩

theorem forEach_sorted {op : Rune → TableOp} (hop : ∀ r, (op r).rune = r) {x : FileEntry}
    (hv : ∀ n, x.1 ≤ n → n ≤ x.2.1 → n.isValidChar) :
    (forEach op x).Pairwise fun o o' => codePoint o.rune < codePoint o'.rune := by
  unfold forEach
  rw [List.pairwise_map]
  refine List.Pairwise.imp_of_mem (fun {i j} hi hj hij => ?_) List.pairwise_lt_range
  have := List.mem_range.mp hi
  have := List.mem_range.mp hj
  rw [hop, hop, codePoint_ofNat (hv _ (by omega) (by omega)), codePoint_ofNat (hv _ (by omega) (by omega))]
  omega

theorem emojiOps_sub {x : FileEntry} {o : TableOp} (h : o ∈ emojiOps x) : o ∈ forEach (fun r => .set r 4) x := by
  unfold emojiOps at h
  split at h
  · split at h
    · exact h
    · cases h
  · cases h

theorem emojiOps_eq (x : FileEntry) : emojiOps x = forEach (fun r => .set r 4) x ∨ emojiOps x = [] := by
  unfold emojiOps
  split
  · split
    · exact .inl rfl
    · exact .inr rfl
  · exact .inr rfl

theorem emoji_sorted (h : Relevant es1 es2 es3) :
    (es2.flatMap emojiOps).Pairwise fun o o' => codePoint o.rune < codePoint o'.rune := by
  have hv : ∀ x ∈ es2, ∀ n, x.1 ≤ n → n ≤ x.2.1 → n.isValidChar := by
    intro x hx n h1 h2
    obtain ⟨r, hr, e1, e2, _⟩ := mem_data (f := fun _ => ()) (k := fun _ => ()) h.pict' hx
    exact scalarB_sound pict_scalar hr (by omega) (by omega)
  rw [List.pairwise_flatMap]
  constructor
  · intro x hx
    rcases emojiOps_eq x with e | e <;> rw [e]
    · exact forEach_sorted (fun _ => rfl) (hv x hx)
    · exact .nil
  · have hs : (es2.map fun x => (x.1, x.2.1)).Pairwise (fun a b => a.2 < b.1) := by
      rw [h.pict, List.pairwise_map]
      exact sortedB_sound pict_sorted
    rw [List.pairwise_map] at hs
    refine List.Pairwise.imp_of_mem (fun {x y} hx hy hxy => ?_) hs
    intro o ho o' ho'
    obtain ⟨n, h1, h2, rfl⟩ := mem_forEach (emojiOps_sub ho)
    obtain ⟨n', h1', h2', rfl⟩ := mem_forEach (emojiOps_sub ho')
    simp only [TableOp.rune]
    rw [codePoint_ofNat (hv x hx _ h1 h2), codePoint_ofNat (hv y hy _ h1' h2')]
    simp only at hxy
    omega

theorem gcbCode_ne (g : GCB) : gcbCode g ≠ 4 := by cases g <;> decide

theorem gcbOps_no4 (h : Relevant es1 es2 es3) (r : Rune) : TableOp.set r 4 ∉ es1.flatMap (gcbOps LookupGCBProperty) := by
  intro hm
  obtain ⟨x, hx, ho⟩ := List.mem_flatMap.mp hm
  obtain ⟨r', hr, e1, e2, e3⟩ := mem_data (k := fun (g : GCB) => some (ascii g.ucdName)) h.gcb hx
  unfold gcbOps at ho
  split at ho
  · next name rest hl =>
    rw [hl] at e3
    simp only [List.head?_cons, Option.some.injEq] at e3
    obtain ⟨n, _, _, e⟩ := mem_forEach ho
    simp only [TableOp.set.injEq] at e
    rw [← e3, ascii_gcb] at e
    exact gcbCode_ne _ e.2.symm
  · cases ho

theorem incbOps_no4 (r : Rune) : TableOp.set r 4 ∉ es3.flatMap (incbOps LookupInCBProperty) := by
  intro hm
  obtain ⟨x, hx, ho⟩ := List.mem_flatMap.mp hm
  unfold incbOps at ho
  split at ho
  · split at ho
    · obtain ⟨n, _, _, e⟩ := mem_forEach ho
      cases e
    · cases ho
  · cases ho

theorem no_conflict (h : Relevant es1 es2 es3) : ¬ Conflict (fileOps LookupGCBProperty LookupInCBProperty es1 es2 es3) := by
  rintro ⟨pre, r, post, e, hne⟩
  unfold fileOps at e
  have key : ∃ a' c'', pre = es1.flatMap (gcbOps LookupGCBProperty) ++ a' ∧ es2.flatMap emojiOps = a' ++ TableOp.set r 4 :: c'' := by
    have key2 : ∀ a', es2.flatMap emojiOps ++ es3.flatMap (incbOps LookupInCBProperty) = a' ++ TableOp.set r 4 :: post →
        ∃ c'', es2.flatMap emojiOps = a' ++ TableOp.set r 4 :: c'' := by
      intro a' e
      rcases List.append_eq_append_iff.mp e with ⟨b, e1, e2⟩ | ⟨b, e1, e2⟩
      · exact absurd (by rw [e2]; simp) (incbOps_no4 (es3 := es3) r)
      · cases b with
        | nil =>
          simp only [List.nil_append] at e2
          exact absurd (by rw [← e2]; simp) (incbOps_no4 (es3 := es3) r)
        | cons s b =>
          simp only [List.cons_append, List.cons.injEq] at e2
          exact ⟨b, by rw [e1, ← e2.1]⟩
    rcases List.append_eq_append_iff.mp e with ⟨a', e1, e2⟩ | ⟨b, e1, e2⟩
    · obtain ⟨c'', e3⟩ := key2 a' e2
      exact ⟨a', c'', e1, e3⟩
    · cases b with
      | nil =>
        simp only [List.nil_append] at e2
        simp only [List.append_nil] at e1
        obtain ⟨c'', e3⟩ := key2 [] e2.symm
        exact ⟨[], c'', by simp [e1], e3⟩
      | cons s b =>
        simp only [List.cons_append, List.cons.injEq] at e2
        exact absurd (by rw [e1, ← e2.1]; simp) (gcbOps_no4 h r)
  obtain ⟨a', c'', e1, e2⟩ := key
  have hs := emoji_sorted h
  rw [e2, List.pairwise_append] at hs
  have hf : a'.filter (fun o => codePoint o.rune == codePoint r) = [] := by
    apply List.filter_eq_nil_iff.mpr
    intro o ho
    have hlt : codePoint o.rune < codePoint r := hs.2.2 o ho _ List.mem_cons_self
    intro e
    have := beq_iff_eq.mp e
    omega
  apply hne
  unfold recorded
  rw [e1, List.filter_append, hf, List.append_nil, fold_gcb _ _ _ _ (h.exact1 _) h.fields, gcb_listed h]
  have hm : TableOp.set r 4 ∈ es2.flatMap emojiOps := by rw [e2]; simp
  obtain ⟨x, hx, ho⟩ := List.mem_flatMap.mp hm
  obtain ⟨n, h1, h2, e⟩ := mem_forEach (emojiOps_sub ho)
  simp only [TableOp.set.injEq] at e
  obtain ⟨r', hr, e1, e2, _⟩ := mem_data (f := fun _ => ()) (k := fun _ => ()) h.pict' hx
  rw [e.1, codePoint_ofNat (scalarB_sound pict_scalar hr (by omega) (by omega))]
  have : (ucd n).extPict = true := by
    rw [← pict_listed h]
    unfold pictListed
    refine List.any_eq_true.mpr ⟨x, hx, ?_⟩
    rw [covers_iff.mpr ⟨h1, h2⟩, Bool.true_and]
    exact h.pictE x hx
  rw [((ucd_consistent n).pict this).1]
  rfl

/-! ## The compaction succeeds -/

theorem mem_fileOps {gcbOf incbOf} {o : TableOp} (ho : o ∈ fileOps gcbOf incbOf es1 es2 es3) :
    ∃ x, (x ∈ es1 ∨ x ∈ es2 ∨ x ∈ es3) ∧ ∃ n, x.1 ≤ n ∧ n ≤ x.2.1 ∧ o.rune = Int32.ofNat n := by
  unfold fileOps at ho
  rw [List.mem_append, List.mem_append] at ho
  rcases ho with ho | ho | ho
  · obtain ⟨x, hx, ho⟩ := List.mem_flatMap.mp ho
    refine ⟨x, .inl hx, ?_⟩
    unfold gcbOps at ho
    split at ho
    · obtain ⟨n, h1, h2, rfl⟩ := mem_forEach ho
      exact ⟨n, h1, h2, rfl⟩
    · cases ho
  · obtain ⟨x, hx, ho⟩ := List.mem_flatMap.mp ho
    obtain ⟨n, h1, h2, rfl⟩ := mem_forEach (emojiOps_sub ho)
    exact ⟨x, .inr (.inl hx), n, h1, h2, rfl⟩
  · obtain ⟨x, hx, ho⟩ := List.mem_flatMap.mp ho
    refine ⟨x, .inr (.inr hx), ?_⟩
    unfold incbOps at ho
    split at ho
    · split at ho
      · obtain ⟨n, h1, h2, rfl⟩ := mem_forEach ho
        exact ⟨n, h1, h2, rfl⟩
      · cases ho
    · cases ho

theorem few_blocks (h : Relevant es1 es2 es3) : AtMostBlocks (fileOps LookupGCBProperty LookupInCBProperty es1 es2 es3) 1021 := by
  refine ⟨intervalBlocks blockIntervals, intervalBlocks_length, fun o ho _ => ?_⟩
  obtain ⟨x, hx, n, h1, h2, e⟩ := mem_fileOps ho
  rw [e]
  rcases hx with hx | hx | hx
  · obtain ⟨r, hr, e1, e2, _⟩ := mem_data (k := fun (g : GCB) => some (ascii g.ucdName)) h.gcb hx
    rw [codePoint_ofNat (scalarB_sound gcb_scalar hr (by omega) (by omega))]
    exact blocksB_sound gcb_blocks hr (by omega) (by omega)
  · obtain ⟨r, hr, e1, e2, _⟩ := mem_data (f := fun _ => ()) (k := fun _ => ()) h.pict' hx
    rw [codePoint_ofNat (scalarB_sound pict_scalar hr (by omega) (by omega))]
    exact blocksB_sound pict_blocks hr (by omega) (by omega)
  · obtain ⟨r, hr, e1, e2, _⟩ := mem_data (k := fun (g : InCB) => some (ascii g.ucdName)) h.incb hx
    rw [codePoint_ofNat (scalarB_sound incb_scalar hr (by omega) (by omega))]
    exact blocksB_sound incb_blocks hr (by omega) (by omega)

theorem ucd_10 : ucdByte 10 = 6 := by decide +kernel

theorem lf_byte (p : CharProps) (hc : p.Consistent) (h : pack p = 6) : p.gcb = .LF := by
  obtain ⟨g, e, i⟩ := p
  cases e with
  | true =>
    have := (hc.pict rfl).1
    simp only at this
    subst this
    revert h
    cases i <;> decide +kernel
  | false =>
    revert h
    cases g <;> cases i <;> decide +kernel

theorem no_clash (h : Relevant es1 es2 es3) : ¬ AsciiClash (fileOps LookupGCBProperty LookupInCBProperty es1 es2 es3) := by
  unfold AsciiClash SameBlock
  rw [recorded_eq h]
  rintro ⟨_, hz | ⟨k, hk, _, hs⟩⟩
  · have := hz 10 (by omega)
    rw [ucd_10] at this
    cases this
  · have := hs 10 (by omega)
    rw [show 64 * 0 + 10 = 10 by omega, ucd_10] at this
    have := lf_only (lf_byte _ (ucd_consistent _) this)
    omega

theorem output_of (L : List UInt8) {raw : RawPropertyTree} (h : raw.Indices = L.map UInt8.toUInt16) : outputIndices raw = .ok L := by
  unfold outputIndices
  rw [h]
  have hall : (L.map UInt8.toUInt16).all (fun v => v ≤ 255) = true := by
    rw [List.all_eq_true]
    intro v hv
    obtain ⟨b, _, rfl⟩ := List.mem_map.mp hv
    have := b.toNat_lt
    simp only [decide_eq_true_eq, UInt16.le_iff_toNat_le, UInt8.toNat_toUInt16]
    show b.toNat ≤ 255
    omega
  rw [if_pos hall]
  congr 1
  rw [List.map_map]
  have : UInt16.toUInt8 ∘ UInt8.toUInt16 = id := by funext b; simp
  rw [this, List.map_id]

theorem raw_eq {I : List UInt16} {P : List UInt8} {st : CState} {raw : RawPropertyTree}
    (e : raw = { Indices := st.indices, Properties := st.props }) (h : st.props = P ∧ st.indices = I) :
    raw.Indices = I ∧ raw.Properties = P := by
  subst e
  exact ⟨h.2, h.1⟩

theorem generated_eq (h : Relevant es1 es2 es3) {t : Tree}
    (ht : runOps newTree (fileOps LookupGCBProperty LookupInCBProperty es1 es2 es3) = .ok t) :
    ∃ raw, t.Compact = .ok raw ∧ raw.Indices = shippedI ∧ raw.Properties = shippedP := by
  obtain ⟨IB, PB, hi⟩ := runOps_ok ht
  obtain ⟨raw, hr⟩ := (compact_iff hi).mpr ⟨few_blocks h, no_clash h⟩
  refine ⟨raw, hr, ?_⟩
  obtain ⟨_, e⟩ := compact_ok hi hr
  have hf := final_of_inv hi.inv
  rw [recorded_eq h] at e hf
  exact raw_eq e (cfinal_shipped hf)

theorem build_shipped (h : ShippedEntries es1 es2 es3) :
    ∃ t raw, runOps newTree (fileOps LookupGCBProperty LookupInCBProperty es1 es2 es3) = .ok t ∧ t.Compact = .ok raw ∧
      outputIndices raw = .ok (tableBytes lookupIndices) ∧ outputProps raw = tableBytes lookupProps := by
  have hr := relevant_of h
  have e : fileOps LookupGCBProperty LookupInCBProperty es1 es2 es3 =
      fileOps LookupGCBProperty LookupInCBProperty es1 (es2.filter pictEntry) (es3.filter incbEntry) := by
    unfold fileOps
    rw [emojiOps_filter es2, incbOps_filter _ es3]
  rw [e]
  rcases runOps_new (fileOps LookupGCBProperty LookupInCBProperty es1 (es2.filter pictEntry) (es3.filter incbEntry)) with ⟨hc, _⟩ | ⟨_, t, IB, PB, ht, _⟩
  · exact absurd hc (no_conflict hr)
  · obtain ⟨raw, h1, h2, h3⟩ := generated_eq hr ht
    exact ⟨t, raw, ht, h1, output_of _ h2, h3⟩

end Textseg.Gen
