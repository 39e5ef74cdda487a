import Verif.Spec.Grammar
import Verif.Proofs.Canonical
/-!
# The rules and the regular expression of UAX #29 describe the same clusters
-/

namespace Textseg
open Spec Spec.Grammar

/-- Reading a text after facts `f` and character `p`, no boundary is met. -/
def Quiet : Flags → CharProps → Text → Prop
  | _, _, [] => True
  | f, p, x :: w => breakB f p x = false ∧ Quiet (f.next x) x w

/-! ## Languages -/

theorem gcb_one {gs : List GCB} {c : CharProps} (h : c.gcb ∈ gs) : gcb gs [c] := ⟨c, rfl, h⟩

theorem star_cons {P : CharProps → Prop} {c : CharProps} {w : Text} (hc : P c) (hw : star (one P) w) : star (one P) (c :: w) :=
  .more [c] w ⟨c, rfl, hc⟩ hw

theorem star_inv {P : CharProps → Prop} {w : Text} (h : star (one P) w) : ∀ c ∈ w, P c := by
  induction h with
  | nil => simp
  | more u v hu hv ih =>
    obtain ⟨c, rfl, hc⟩ := hu
    intro x hx
    rcases List.mem_cons.mp hx with rfl | hx
    · exact hc
    · exact ih x hx

theorem star_of {P : CharProps → Prop} : ∀ {w : Text}, (∀ c ∈ w, P c) → star (one P) w
  | [], _ => .nil
  | c :: w, h => star_cons (h c (by simp)) (star_of fun x hx => h x (by simp [hx]))

theorem star_iff {P : CharProps → Prop} {w : Text} : star (one P) w ↔ ∀ c ∈ w, P c := ⟨star_inv, star_of⟩

/-! ## From the rules to the expression -/

/-- Why there is no boundary. -/
theorem break_inv {f : Flags} {p x : CharProps} (h : breakB f p x = false) :
    (p.gcb = .CR ∧ x.gcb = .LF) ∨ (¬ p.isControl ∧ ¬ x.isControl ∧
      ((p.gcb = .L ∧ (x.gcb = .L ∨ x.gcb = .V ∨ x.gcb = .LV ∨ x.gcb = .LVT)) ∨
       ((p.gcb = .LV ∨ p.gcb = .V) ∧ (x.gcb = .V ∨ x.gcb = .T)) ∨ ((p.gcb = .LVT ∨ p.gcb = .T) ∧ x.gcb = .T) ∨
       x.gcb ∈ [GCB.Extend, .ZWJ, .SpacingMark] ∨ p.gcb = .Prepend ∨ (f.lnk = true ∧ x.incb = .Consonant) ∨
       (f.emoZ = true ∧ x.extPict = true) ∨ (f.ri = true ∧ x.gcb = .RegionalIndicator))) := by
  by_cases h1 : p.gcb = .CR ∧ x.gcb = .LF
  · exact Or.inl h1
  · right
    by_cases hc : p.isControl ∨ x.isControl
    · rw [breakB_ctl f h1 hc] at h; cases h
    · rw [not_or] at hc
      refine ⟨hc.1, hc.2, ?_⟩
      unfold breakB at h
      rw [not_crlf (Or.inl hc.1), ctl_false hc.1, ctl_false hc.2] at h
      simp only [Bool.not_false, Bool.true_and, Bool.false_or, Bool.not_eq_false', Bool.or_eq_true, Bool.and_eq_true,
        beq_iff_eq] at h
      simp only [List.mem_cons, List.not_mem_nil, or_false]
      rcases h with (((((((h | h) | h) | (h | h)) | h) | h) | h) | h) | h <;> first | (simp_all; done) | (simp_all [or_assoc]; done)

/-- What is left after a character that nothing special can follow. -/
def Plain (f : Flags) (p : CharProps) : Prop :=
  f.emo = false ∧ f.emoZ = false ∧ f.con = false ∧ f.lnk = false ∧ f.ri = false ∧
  p.gcb ≠ .Prepend ∧ p.gcb ≠ .L ∧ p.gcb ≠ .V ∧ p.gcb ≠ .LV ∧ p.gcb ≠ .LVT ∧ p.gcb ≠ .T ∧ ¬ p.isControl

theorem mark_ctl {x : CharProps} (h : x.gcb ∈ [GCB.Extend, .ZWJ, .SpacingMark]) : ¬ x.isControl := by
  simp only [List.mem_cons, List.not_mem_nil, or_false] at h
  rcases h with h | h | h <;> simp [CharProps.isControl, h]

theorem mark_pict {x : CharProps} (cx : x.Consistent) (h : x.gcb ∈ [GCB.Extend, .ZWJ, .SpacingMark]) : x.extPict = false := by
  cases he : x.extPict
  · rfl
  · rw [(cx.pict he).1] at h; simp at h

theorem mark_cons {x : CharProps} (cx : x.Consistent) (h : x.gcb ∈ [GCB.Extend, .ZWJ, .SpacingMark]) : x.incb ≠ .Consonant := by
  intro he
  rw [cx.consonant he] at h; simp at h

/-- After a mark that does not keep a sequence going. -/
theorem plain_mark {f : Flags} {x : CharProps} (cx : x.Consistent) (h : x.gcb ∈ [GCB.Extend, .ZWJ, .SpacingMark])
    (h1 : f.emo = false ∨ x.gcb = .SpacingMark) (h2 : (f.con = false ∧ f.lnk = false) ∨ joiner x = false) :
    Plain (f.next x) x := by
  have e1 := mark_pict cx h
  have e2 := mark_cons cx h
  have e3 := mark_ctl h
  have e4 : (x.incb == .Consonant) = false := by simpa using e2
  have e5 : joiner x = false → (x.incb == .Linker) = false := by
    unfold joiner; intro h; rw [Bool.or_eq_false_iff] at h; exact h.2
  simp only [List.mem_cons, List.not_mem_nil, or_false] at h
  refine ⟨?_, ?_, ?_, ?_, ?_, ?_, ?_, ?_, ?_, ?_, ?_, e3⟩
  · simp only [Flags.next, e1]; rcases h1 with h1 | h1 <;> simp [h1]
  · simp only [Flags.next]; rcases h1 with h1 | h1 <;> simp [h1]
  · simp only [Flags.next, e4]; rcases h2 with h2 | h2 <;> simp [h2]
  · simp only [Flags.next]; rcases h2 with h2 | h2 <;> simp [h2, e5]
  · simp only [Flags.next]; rcases h with h | h | h <;> simp [h]
  all_goals rcases h with h | h | h <;> simp [h]

theorem plain_tail : ∀ (w : Text) (f : Flags) (p : CharProps), (∀ c ∈ w, c.Consistent) → Plain f p → Quiet f p w →
    star postcore w := by
  intro w
  induction w with
  | nil => intros; exact .nil
  | cons x w ih =>
    intro f p hw hp hq
    obtain ⟨h1, h2, h3, h4, h5, h6, h7, h8, h9, h10, h11, h12⟩ := hp
    have hx : x.gcb ∈ [GCB.Extend, .ZWJ, .SpacingMark] := by
      rcases break_inv hq.1 with h | ⟨-, -, h⟩
      · exact absurd (Or.inr (Or.inl h.1)) h12
      · simp_all
    exact star_cons (P := fun c => c.gcb ∈ [GCB.Extend, .ZWJ, .SpacingMark]) hx
      (ih _ _ (fun c hc => hw c (by simp [hc])) (plain_mark (hw x (by simp)) hx (Or.inl h1) (Or.inl ⟨h3, h4⟩)) hq.2)

/-- No sequence with memory is under way. -/
def NoMem (f : Flags) : Prop := f.emo = false ∧ f.emoZ = false ∧ f.con = false ∧ f.lnk = false ∧ f.ri = false

theorem noMem_next {f : Flags} {x : CharProps} (hf : NoMem f) (h1 : x.extPict = false) (h2 : x.incb ≠ .Consonant)
    (h3 : x.gcb ≠ .RegionalIndicator) : NoMem (f.next x) := by
  obtain ⟨a, b, c, d, e⟩ := hf
  refine ⟨?_, ?_, ?_, ?_, ?_⟩ <;> simp [Flags.next, a, c, d, h1, h2, h3]

theorem noMem_gcb {f : Flags} {x : CharProps} (hf : NoMem f) (cx : x.Consistent) (h : x.gcb ≠ .Other)
    (h3 : x.gcb ≠ .RegionalIndicator) : NoMem (f.next x) :=
  noMem_next hf (by cases he : x.extPict with | false => rfl | true => exact absurd (cx.pict he).1 h)
    (fun he => h (cx.consonant he)) h3

/-- `T* postcore*` -/
theorem t_tail : ∀ (w : Text) (f : Flags) (p : CharProps), (∀ c ∈ w, c.Consistent) → NoMem f → (p.gcb = .LVT ∨ p.gcb = .T) →
    Quiet f p w → seq (star (gcb [.T])) (star postcore) w := by
  intro w
  induction w with
  | nil => intros; exact ⟨[], [], rfl, .nil, .nil⟩
  | cons x w ih =>
    intro f p hw hf hp hq
    have hww : ∀ c ∈ w, c.Consistent := fun c hc => hw c (by simp [hc])
    have hx : x.gcb = .T ∨ x.gcb ∈ [GCB.Extend, .ZWJ, .SpacingMark] := by
      obtain ⟨h1, h2, h3, h4, h5⟩ := hf
      rcases break_inv hq.1 with h | ⟨-, -, h⟩ <;> rcases hp with hp | hp <;> first | (simp_all; done) | (simp_all [or_assoc]; done) | grind
    rcases hx with hx | hx
    · obtain ⟨u, v, rfl, hu, hv⟩ := ih _ _ hww (noMem_gcb hf (hw x (by simp)) (by simp [hx]) (by simp [hx])) (Or.inr hx) hq.2
      exact ⟨x :: u, v, rfl, star_cons (P := fun c => c.gcb ∈ [GCB.T]) (by simp [hx]) hu, hv⟩
    · exact ⟨[], x :: w, rfl, .nil, star_cons (P := fun c => c.gcb ∈ [GCB.Extend, .ZWJ, .SpacingMark]) hx
        (plain_tail _ _ _ hww (plain_mark (hw x (by simp)) hx (Or.inl hf.1) (Or.inl ⟨hf.2.2.1, hf.2.2.2.1⟩)) hq.2)⟩

/-- `V* T* postcore*` -/
theorem v_tail : ∀ (w : Text) (f : Flags) (p : CharProps), (∀ c ∈ w, c.Consistent) → NoMem f → (p.gcb = .LV ∨ p.gcb = .V) →
    Quiet f p w → seq (star (gcb [.V])) (seq (star (gcb [.T])) (star postcore)) w := by
  intro w
  induction w with
  | nil => intros; exact ⟨[], [], rfl, .nil, [], [], rfl, .nil, .nil⟩
  | cons x w ih =>
    intro f p hw hf hp hq
    have hww : ∀ c ∈ w, c.Consistent := fun c hc => hw c (by simp [hc])
    have hx : x.gcb = .V ∨ x.gcb = .T ∨ x.gcb ∈ [GCB.Extend, .ZWJ, .SpacingMark] := by
      obtain ⟨h1, h2, h3, h4, h5⟩ := hf
      rcases break_inv hq.1 with h | ⟨-, -, h⟩ <;> rcases hp with hp | hp <;> first | (simp_all; done) | (simp_all [or_assoc]; done) | grind
    have cx := hw x (by simp)
    rcases hx with hx | hx | hx
    · obtain ⟨u, v, rfl, hu, hv⟩ := ih _ _ hww (noMem_gcb hf cx (by simp [hx]) (by simp [hx])) (Or.inr hx) hq.2
      exact ⟨x :: u, v, rfl, star_cons (P := fun c => c.gcb ∈ [GCB.V]) (by simp [hx]) hu, hv⟩
    · obtain ⟨u, v, rfl, hu, hv⟩ := t_tail _ _ _ hww (noMem_gcb hf cx (by simp [hx]) (by simp [hx])) (Or.inr hx) hq.2
      exact ⟨[], _, rfl, .nil, x :: u, v, rfl, star_cons (P := fun c => c.gcb ∈ [GCB.T]) (by simp [hx]) hu, hv⟩
    · exact ⟨[], _, rfl, .nil, [], x :: w, rfl, .nil, star_cons (P := fun c => c.gcb ∈ [GCB.Extend, .ZWJ, .SpacingMark]) hx
        (plain_tail _ _ _ hww (plain_mark cx hx (Or.inl hf.1) (Or.inl ⟨hf.2.2.1, hf.2.2.2.1⟩)) hq.2)⟩

/-- `L* (V+ | LV V* | LVT) T*` or `L*`, then `postcore*` -/
def AfterL : Lang := seq (star (gcb [.L])) (alt (star postcore)
  (seq (alt (plus (gcb [.V])) (alt (seq (gcb [.LV]) (star (gcb [.V]))) (gcb [.LVT]))) (seq (star (gcb [.T])) (star postcore))))

theorem l_tail : ∀ (w : Text) (f : Flags) (p : CharProps), (∀ c ∈ w, c.Consistent) → NoMem f → p.gcb = .L →
    Quiet f p w → AfterL w := by
  intro w
  induction w with
  | nil => intros; exact ⟨[], [], rfl, .nil, Or.inl .nil⟩
  | cons x w ih =>
    intro f p hw hf hp hq
    have hww : ∀ c ∈ w, c.Consistent := fun c hc => hw c (by simp [hc])
    have hx : x.gcb = .L ∨ x.gcb = .V ∨ x.gcb = .LV ∨ x.gcb = .LVT ∨ x.gcb ∈ [GCB.Extend, .ZWJ, .SpacingMark] := by
      obtain ⟨h1, h2, h3, h4, h5⟩ := hf
      rcases break_inv hq.1 with h | ⟨-, -, h⟩
      · simp_all
      · simp_all only [reduceCtorEq, false_and, or_false, false_or, true_and, Bool.false_eq_true, List.mem_cons,
          List.not_mem_nil]
        rcases h with (h | h | h | h) | h <;> first | (simp_all; done) | (simp_all [or_assoc]; done)
    have cx := hw x (by simp)
    rcases hx with hx | hx | hx | hx | hx
    · obtain ⟨u, v, rfl, hu, hv⟩ := ih _ _ hww (noMem_gcb hf cx (by simp [hx]) (by simp [hx])) hx hq.2
      exact ⟨x :: u, v, rfl, star_cons (P := fun c => c.gcb ∈ [GCB.L]) (by simp [hx]) hu, hv⟩
    · obtain ⟨u, v, rfl, hu, hv⟩ := v_tail _ _ _ hww (noMem_gcb hf cx (by simp [hx]) (by simp [hx])) (Or.inr hx) hq.2
      exact ⟨[], _, rfl, .nil, Or.inr ⟨x :: u, v, rfl, Or.inl ⟨[x], u, rfl, gcb_one (by simp [hx]), hu⟩, hv⟩⟩
    · obtain ⟨u, v, rfl, hu, hv⟩ := v_tail _ _ _ hww (noMem_gcb hf cx (by simp [hx]) (by simp [hx])) (Or.inl hx) hq.2
      exact ⟨[], _, rfl, .nil, Or.inr ⟨x :: u, v, rfl, Or.inr (Or.inl ⟨[x], u, rfl, gcb_one (by simp [hx]), hu⟩), hv⟩⟩
    · have := t_tail _ _ _ hww (noMem_gcb hf cx (by simp [hx]) (by simp [hx])) (Or.inl hx) hq.2
      exact ⟨[], _, rfl, .nil, Or.inr ⟨[x], w, rfl, Or.inr (Or.inr (gcb_one (by simp [hx]))), this⟩⟩
    · exact ⟨[], x :: w, rfl, .nil, Or.inl (star_cons (P := fun c => c.gcb ∈ [GCB.Extend, .ZWJ, .SpacingMark]) hx
        (plain_tail _ _ _ hww (plain_mark cx hx (Or.inl hf.1) (Or.inl ⟨hf.2.2.1, hf.2.2.2.1⟩)) hq.2))⟩

/-- `(Extend* ZWJ pict)* postcore*` -/
def AfterPict : Lang := seq (star (seq (star (gcb [.Extend])) (seq (gcb [.ZWJ]) pict))) (star postcore)

theorem emo_tail : ∀ (w : Text) (f : Flags) (p : CharProps), (∀ c ∈ w, c.Consistent) →
    f.con = false → f.lnk = false → f.ri = false → (p.gcb = .Other ∨ p.gcb = .Extend ∨ p.gcb = .ZWJ) → Quiet f p w →
    (f.emo = true → f.emoZ = false → AfterPict w) ∧
    (f.emo = false → f.emoZ = true → star postcore w ∨ ∃ x w', w = x :: w' ∧ x.extPict = true ∧ AfterPict w') := by
  intro w
  induction w with
  | nil => intros; exact ⟨fun _ _ => ⟨[], [], rfl, .nil, .nil⟩, fun _ _ => Or.inl .nil⟩
  | cons x w ih =>
    intro f p hw hc hl hr hp hq
    have hww : ∀ c ∈ w, c.Consistent := fun c hc => hw c (by simp [hc])
    have cx := hw x (by simp)
    have hx : (f.emoZ = true ∧ x.extPict = true) ∨ x.gcb ∈ [GCB.Extend, .ZWJ, .SpacingMark] := by
      rcases break_inv hq.1 with h | ⟨-, -, h⟩ <;> rcases hp with hp | hp | hp <;> first | (simp_all; done) | (simp_all [or_comm]; done) | grind
    have plain : x.gcb ∈ [GCB.Extend, .ZWJ, .SpacingMark] → (f.emo = false ∨ x.gcb = .SpacingMark) → star postcore (x :: w) :=
      fun h h1 => star_cons (P := fun c => c.gcb ∈ [GCB.Extend, .ZWJ, .SpacingMark]) h
        (plain_tail _ _ _ hww (plain_mark cx h h1 (Or.inl ⟨hc, hl⟩)) hq.2)
    constructor
    · intro he hz
      rcases hx with hx | hx
      · rw [hz] at hx; simp at hx
      have e1 := mark_pict cx hx
      have e2 : (x.incb == .Consonant) = false := by simpa using mark_cons cx hx
      have n1 : (f.next x).con = false := by simp [Flags.next, hc, e2]
      have n2 : (f.next x).lnk = false := by simp [Flags.next, hc, hl]
      have n3 : (f.next x).ri = false := by
        simp only [List.mem_cons, List.not_mem_nil, or_false] at hx
        rcases hx with h | h | h <;> simp [Flags.next, h]
      simp only [List.mem_cons, List.not_mem_nil, or_false] at hx
      rcases hx with hx | hx | hx
      · obtain ⟨u, v, rfl, hu, hv⟩ := (ih (f.next x) x hww n1 n2 n3 (Or.inr (Or.inl hx)) hq.2).1 (by simp [Flags.next, hx, he])
          (by simp [Flags.next, hx])
        cases hu with
        | nil => exact ⟨[], _, rfl, .nil, star_cons (P := fun c => c.gcb ∈ [GCB.Extend, .ZWJ, .SpacingMark]) (by simp [hx]) hv⟩
        | more u1 u2 h1 h2 =>
          obtain ⟨a, b, rfl, ha, hb⟩ := h1
          exact ⟨(x :: a ++ b) ++ u2, v, by simp, .more _ _ ⟨x :: a, b, rfl, star_cons (P := fun c => c.gcb ∈ [GCB.Extend])
            (by simp [hx]) ha, hb⟩ h2, hv⟩
      · rcases (ih (f.next x) x hww n1 n2 n3 (Or.inr (Or.inr hx)) hq.2).2 (by simp [Flags.next, hx, e1])
          (by simp [Flags.next, hx, he]) with h | ⟨y, w', rfl, hy, u, v, rfl, hu, hv⟩
        · exact ⟨[], _, rfl, .nil, star_cons (P := fun c => c.gcb ∈ [GCB.Extend, .ZWJ, .SpacingMark]) (by simp [hx]) h⟩
        · exact ⟨[x, y] ++ u, v, by simp, .more _ _ ⟨[], [x, y], rfl, .nil, [x], [y], rfl, gcb_one (by simp [hx]), y, rfl, hy⟩ hu, hv⟩
      · exact ⟨[], x :: w, rfl, .nil, plain (by simp [hx]) (Or.inr hx)⟩
    · intro he hz
      rcases hx with ⟨-, hx⟩ | hx
      · right
        have e1 := cx.pict hx
        refine ⟨x, w, rfl, hx, (ih (f.next x) x hww ?_ ?_ ?_ (Or.inl e1.1) hq.2).1 ?_ ?_⟩ <;>
          simp [Flags.next, hx, e1.1, e1.2, joiner]
      · exact Or.inl (plain hx (Or.inl he))

/-- One more link of a conjunct. -/
def link : Lang := seq (star extendLinker) (seq linker (seq (star extendLinker) consonant))
/-- `link* postcore*` -/
def AfterCons : Lang := seq (star link) (star postcore)

theorem con_tail : ∀ (w : Text) (f : Flags) (p : CharProps), (∀ c ∈ w, c.Consistent) →
    f.emo = false → f.emoZ = false → f.ri = false → f.con = true → (p.gcb = .Other ∨ p.gcb = .Extend ∨ p.gcb = .ZWJ) → Quiet f p w →
    (f.lnk = false → AfterCons w) ∧
    (f.lnk = true → star postcore w ∨ ∃ j x w', w = j ++ x :: w' ∧ star extendLinker j ∧ x.incb = .Consonant ∧ AfterCons w') := by
  intro w
  induction w with
  | nil => intros; exact ⟨fun _ => ⟨[], [], rfl, .nil, .nil⟩, fun _ => Or.inl .nil⟩
  | cons x w ih =>
    intro f p hw he hz hr hc hp hq
    have hww : ∀ c ∈ w, c.Consistent := fun c hc => hw c (by simp [hc])
    have cx := hw x (by simp)
    have hx : (f.lnk = true ∧ x.incb = .Consonant) ∨ x.gcb ∈ [GCB.Extend, .ZWJ, .SpacingMark] := by
      rcases break_inv hq.1 with h | ⟨-, -, h⟩ <;> rcases hp with hp | hp | hp <;> first | (simp_all; done) | (simp_all [or_comm]; done) | grind
    have plain : x.gcb ∈ [GCB.Extend, .ZWJ, .SpacingMark] → joiner x = false → star postcore (x :: w) :=
      fun h h1 => star_cons (P := fun c => c.gcb ∈ [GCB.Extend, .ZWJ, .SpacingMark]) h
        (plain_tail _ _ _ hww (plain_mark cx h (Or.inl he) (Or.inr h1)) hq.2)
    have joined : joiner x = true → (x.gcb = .Extend ∨ x.gcb = .ZWJ) ∧ (f.next x).emo = false ∧ (f.next x).emoZ = false ∧
        (f.next x).ri = false ∧ (f.next x).con = true := by
      intro hj
      have h1 := cx.joiner ((joiner_iff x).mp hj)
      have e1 := mark_pict cx (by rcases h1 with h | h <;> simp [h])
      refine ⟨h1, ?_, ?_, ?_, ?_⟩ <;> simp only [Flags.next, he, e1, hj, hc] <;> rcases h1 with h | h <;> simp [h]
    have postx : joiner x = true → x.gcb ∈ [GCB.Extend, .ZWJ, .SpacingMark] := by
      intro hj; rcases (joined hj).1 with h | h <;> simp [h]
    constructor
    · intro hl
      rcases hx with hx | hx
      · rw [hl] at hx; simp at hx
      by_cases hj : joiner x = true
      · obtain ⟨j0, j1, j2, j3, j4⟩ := joined hj
        have hi := ih (f.next x) x hww j1 j2 j3 j4 (Or.inr j0) hq.2
        by_cases hlk : x.incb = .Linker
        · rcases hi.2 (by simp [Flags.next, hlk, hc]) with h | ⟨j, y, w', rfl, hjj, hy, u, v, rfl, hu, hv⟩
          · exact ⟨[], _, rfl, .nil, star_cons (P := fun c => c.gcb ∈ [GCB.Extend, .ZWJ, .SpacingMark]) hx h⟩
          · exact ⟨(x :: (j ++ [y])) ++ u, v, by simp, .more _ _ ⟨[], _, rfl, .nil, [x], _, rfl, ⟨x, rfl, hlk⟩, j, [y], rfl, hjj, y, rfl, hy⟩ hu, hv⟩
        · have hel : x.incb = .Extend := by
            rcases (joiner_iff x).mp hj with h | h
            · exact h
            · exact absurd h hlk
          obtain ⟨u, v, rfl, hu, hv⟩ := hi.1 (by simp [Flags.next, hel, hl])
          cases hu with
          | nil => exact ⟨[], _, rfl, .nil, star_cons (P := fun c => c.gcb ∈ [GCB.Extend, .ZWJ, .SpacingMark]) hx hv⟩
          | more u1 u2 h1 h2 =>
            obtain ⟨a, b, rfl, ha, hb⟩ := h1
            exact ⟨(x :: a ++ b) ++ u2, v, by simp, .more _ _ ⟨x :: a, b, rfl, star_cons
              (P := fun c => c.incb = .Extend ∨ c.incb = .Linker) (Or.inl hel) ha, hb⟩ h2, hv⟩
      · rw [Bool.not_eq_true] at hj
        exact ⟨[], x :: w, rfl, .nil, plain hx hj⟩
    · intro hl
      rcases hx with ⟨-, hx⟩ | hx
      · right
        have e1 := cx.consonant hx
        have e2 : x.extPict = false := by
          cases h : x.extPict
          · rfl
          · have := (cx.pict h).2; rw [hx] at this; cases this
        refine ⟨[], x, w, rfl, .nil, hx, (ih (f.next x) x hww ?_ ?_ ?_ ?_ (Or.inl e1) hq.2).1 ?_⟩ <;>
          simp [Flags.next, hx, e1, e2, joiner]
      · by_cases hj : joiner x = true
        · obtain ⟨j0, j1, j2, j3, j4⟩ := joined hj
          rcases (ih (f.next x) x hww j1 j2 j3 j4 (Or.inr j0) hq.2).2 (by simp [Flags.next, hj, hl]) with
            h | ⟨j, y, w', rfl, hjj, hy⟩
          · exact Or.inl (star_cons (P := fun c => c.gcb ∈ [GCB.Extend, .ZWJ, .SpacingMark]) hx h)
          · exact Or.inr ⟨x :: j, y, w', rfl, star_cons (P := fun c => c.incb = .Extend ∨ c.incb = .Linker)
              ((joiner_iff x).mp hj) hjj, hy⟩
        · rw [Bool.not_eq_true] at hj
          exact Or.inl (plain hx hj)

theorem noMem_init : NoMem Flags.init := ⟨rfl, rfl, rfl, rfl, rfl⟩

/-- `core postcore*` -/
theorem core_tail (x : CharProps) (w : Text) (f : Flags) (hf : NoMem f) (cx : x.Consistent) (hw : ∀ c ∈ w, c.Consistent)
    (hc : ¬ x.isControl) (hp : x.gcb ≠ .Prepend) (hq : Quiet (f.next x) x w) : seq core (star postcore) (x :: w) := by
  have single : star postcore w → seq core (star postcore) (x :: w) := fun h =>
    ⟨[x], w, rfl, Or.inr (Or.inr (Or.inr (Or.inr ⟨x, rfl, hc⟩))), h⟩
  by_cases h1 : x.extPict = true
  · obtain ⟨e1, e2⟩ := cx.pict h1
    obtain ⟨u, v, rfl, hu, hv⟩ := (emo_tail w (f.next x) x hw (by simp [Flags.next, e2, joiner]) (by simp [Flags.next, e2, joiner])
      (by simp [Flags.next, e1]) (Or.inl e1) hq).1 (by simp [Flags.next, h1]) (by simp [Flags.next, e1])
    exact ⟨x :: u, v, rfl, Or.inr (Or.inr (Or.inl ⟨[x], u, rfl, ⟨x, rfl, h1⟩, hu⟩)), hv⟩
  rw [Bool.not_eq_true] at h1
  by_cases h2 : x.incb = .Consonant
  · have e1 := cx.consonant h2
    obtain ⟨u, v, rfl, hu, hv⟩ := (con_tail w (f.next x) x hw (by simp [Flags.next, h1, e1]) (by simp [Flags.next, e1])
      (by simp [Flags.next, e1]) (by simp [Flags.next, h2]) (Or.inl e1) hq).1 (by simp [Flags.next, h2, joiner])
    cases hu with
    | nil => exact single hv
    | more u1 u2 a b =>
      exact ⟨x :: (u1 ++ u2), v, rfl, Or.inr (Or.inr (Or.inr (Or.inl ⟨[x], _, rfl, ⟨x, rfl, h2⟩, u1, u2, rfl, a, b⟩))), hv⟩
  by_cases h3 : x.gcb = .RegionalIndicator
  · have hn : (f.next x).ri = true := by simp [Flags.next, h3, hf.2.2.2.2]
    have hj : joiner x = false := by
      cases hj : joiner x
      · rfl
      · have := cx.joiner ((joiner_iff x).mp hj)
        rw [h3] at this; simp at this
    have m1 : (f.next x).emo = false := by simp [Flags.next, h1, h3]
    have m2 : (f.next x).emoZ = false := by simp [Flags.next, h3]
    have m3 : (f.next x).con = false := by simp [Flags.next, h2, hj]
    have m4 : (f.next x).lnk = false := by simp [Flags.next, hf.2.2.1, hj]
    cases w with
    | nil => exact single .nil
    | cons y w =>
      have hww : ∀ c ∈ w, c.Consistent := fun c hc => hw c (by simp [hc])
      have cy := hw y (by simp)
      have hy : y.gcb = .RegionalIndicator ∨ y.gcb ∈ [GCB.Extend, .ZWJ, .SpacingMark] := by
        rcases break_inv hq.1 with h | ⟨-, -, h⟩ <;> first | (simp_all; done) | (simp_all [or_comm]; done) | grind
      rcases hy with hy | hy
      · have hj' : joiner y = false := by
          cases hj : joiner y
          · rfl
          · have := cy.joiner ((joiner_iff y).mp hj)
            rw [hy] at this; simp at this
        have e1 : y.extPict = false := by
          cases h : y.extPict
          · rfl
          · have := (cy.pict h).1; rw [hy] at this; cases this
        have e2 : y.incb ≠ .Consonant := by
          intro h; have := cy.consonant h; rw [hy] at this; cases this
        refine ⟨[x, y], w, rfl, Or.inr (Or.inl ⟨[x], [y], rfl, gcb_one (by simp [h3]), gcb_one (by simp [hy])⟩), ?_⟩
        refine plain_tail w _ y hww ⟨?_, ?_, ?_, ?_, ?_, ?_, ?_, ?_, ?_, ?_, ?_, ?_⟩ hq.2
        · simp only [Flags.next]; simp [hy, e1]
        · simp only [Flags.next]; simp [hy]
        · rw [Flags.next]; simp [hj', e2]
        · rw [Flags.next]; simp [hj', m3]
        · rw [Flags.next]; simp [hn]
        all_goals simp [hy, CharProps.isControl]
      · exact single (star_cons (P := fun c => c.gcb ∈ [GCB.Extend, .ZWJ, .SpacingMark]) hy
          (plain_tail _ _ _ hww (plain_mark cy hy (Or.inl m1) (Or.inl ⟨m3, m4⟩)) hq.2))
  have hm : NoMem (f.next x) := noMem_next hf h1 h2 h3
  by_cases h4 : x.gcb = .L
  · obtain ⟨u, v, rfl, hu, hv⟩ := l_tail w _ x hw hm h4 hq
    have hu' : star (gcb [.L]) (x :: u) := star_cons (P := fun c => c.gcb ∈ [GCB.L]) (by simp [h4]) hu
    rcases hv with hv | ⟨a, b, rfl, ha, c, d, rfl, hc, hd⟩
    · exact ⟨x :: u, v, rfl, Or.inl (Or.inr (Or.inl ⟨[x], u, rfl, gcb_one (by simp [h4]), hu⟩)), hv⟩
    · exact ⟨x :: u ++ (a ++ c), d, by simp, Or.inl (Or.inl ⟨x :: u, a ++ c, rfl, hu', a, c, rfl, ha, hc⟩), hd⟩
  by_cases h5 : x.gcb = .V
  · obtain ⟨u, v, rfl, hu, c, d, rfl, hc, hd⟩ := v_tail w _ x hw hm (Or.inr h5) hq
    exact ⟨x :: u ++ c, d, by simp, Or.inl (Or.inl ⟨[], _, rfl, .nil, x :: u, c, rfl, Or.inl ⟨[x], u, rfl, gcb_one (by simp [h5]), hu⟩, hc⟩), hd⟩
  by_cases h6 : x.gcb = .LV
  · obtain ⟨u, v, rfl, hu, c, d, rfl, hc, hd⟩ := v_tail w _ x hw hm (Or.inl h6) hq
    exact ⟨x :: u ++ c, d, by simp, Or.inl (Or.inl ⟨[], _, rfl, .nil, x :: u, c, rfl, Or.inr (Or.inl ⟨[x], u, rfl, gcb_one (by simp [h6]), hu⟩), hc⟩), hd⟩
  by_cases h7 : x.gcb = .LVT
  · obtain ⟨u, v, rfl, hu, hv⟩ := t_tail w _ x hw hm (Or.inl h7) hq
    exact ⟨x :: u, v, by simp, Or.inl (Or.inl ⟨[], _, rfl, .nil, [x], u, rfl, Or.inr (Or.inr (gcb_one (by simp [h7]))), hu⟩), hv⟩
  by_cases h8 : x.gcb = .T
  · obtain ⟨u, v, rfl, hu, hv⟩ := t_tail w _ x hw hm (Or.inr h8) hq
    exact ⟨x :: u, v, by simp, Or.inl (Or.inr (Or.inr ⟨[x], u, rfl, gcb_one (by simp [h8]), hu⟩)), hv⟩
  exact single (plain_tail w _ x hw ⟨hm.1, hm.2.1, hm.2.2.1, hm.2.2.2.1, hm.2.2.2.2, hp, h4, h5, h6, h7, h8, hc⟩ hq)

/-- `precore* core postcore*` -/
theorem pre_tail : ∀ (w : Text) (x : CharProps) (f : Flags), NoMem f → x.Consistent → (∀ c ∈ w, c.Consistent) →
    ¬ x.isControl → Quiet (f.next x) x w → seq (star precore) (seq core (star postcore)) (x :: w) := by
  intro w
  induction w with
  | nil =>
    intro x f hf cx hw hc hq
    exact ⟨[], [x], rfl, .nil, [x], [], rfl, Or.inr (Or.inr (Or.inr (Or.inr ⟨x, rfl, hc⟩))), .nil⟩
  | cons y w ih =>
    intro x f hf cx hw hc hq
    by_cases hp : x.gcb = .Prepend
    · have hy : ¬ y.isControl := by
        rcases break_inv hq.1 with h | ⟨-, h, -⟩
        · rw [hp] at h; simp at h
        · exact h
      obtain ⟨u, v, e, hu, hv⟩ := ih y (f.next x) (noMem_gcb hf cx (by simp [hp]) (by simp [hp])) (hw y (by simp))
        (fun c hc => hw c (by simp [hc])) hy hq.2
      exact ⟨x :: u, v, by rw [e]; rfl, star_cons (P := fun c => c.gcb ∈ [GCB.Prepend]) (by simp [hp]) hu, hv⟩
    · exact ⟨[], x :: y :: w, rfl, .nil, core_tail x (y :: w) f hf cx hw hc hp hq⟩

/-- A text without inner boundaries matches. -/
theorem egc_of_quiet (x : CharProps) (w : Text) (cx : x.Consistent) (hw : ∀ c ∈ w, c.Consistent)
    (hq : Quiet (Flags.init.next x) x w) : egc (x :: w) := by
  by_cases hc : x.isControl
  · cases w with
    | nil => exact Or.inr (Or.inl ⟨x, rfl, hc⟩)
    | cons y w =>
      rcases break_inv hq.1 with h | ⟨h, -⟩
      · cases w with
        | nil => exact Or.inl ⟨[x], [y], rfl, gcb_one (by simp [h.1]), gcb_one (by simp [h.2])⟩
        | cons z w =>
          rcases break_inv hq.2.1 with h' | ⟨h', -⟩
          · rw [h.2] at h'; simp at h'
          · exact absurd (Or.inr (Or.inr h.2)) h'
      · exact absurd hc h
  · exact Or.inr (Or.inr (pre_tail w x Flags.init noMem_init cx hw hc hq))

/-! ## From the expression to the rules -/

theorem quiet_break {f : Flags} {p x : CharProps} (hp : ¬ p.isControl) (hx : ¬ x.isControl)
    (h : (f.lnk = true ∧ x.incb = .Consonant) ∨ (f.emoZ = true ∧ x.extPict = true) ∨
      (f.ri = true ∧ x.gcb = .RegionalIndicator)) : breakB f p x = false := by
  unfold breakB
  rw [not_crlf (Or.inl hp), ctl_false hp, ctl_false hx]
  rcases h with h | h | h <;> simp [h]

/-- `postcore*` -/
theorem quiet_post : ∀ {w : Text} {f : Flags} {p : CharProps}, ¬ p.isControl → star postcore w → Quiet f p w := by
  intro w
  induction w with
  | nil => intros; exact trivial
  | cons x w ih =>
    intro f p hp h
    have h' := star_inv (P := fun c => c.gcb ∈ [GCB.Extend, .ZWJ, .SpacingMark]) h
    have hx := h' x (by simp)
    refine ⟨breakB_mark f hp (by simpa using hx), ih (mark_ctl hx) (star_of fun c hc => h' c (by simp [hc]))⟩

theorem not_ctl {x : CharProps} {g : GCB} (h : x.gcb = g) (hg : g ≠ .CR ∧ g ≠ .LF ∧ g ≠ .Control) : ¬ x.isControl := by
  unfold CharProps.isControl; rw [h]; simp [hg]

theorem quiet_t {v : Text} (hv : star postcore v) : ∀ {u : Text} {f : Flags} {p : CharProps}, star (gcb [.T]) u →
    (p.gcb = .LVT ∨ p.gcb = .T ∨ p.gcb = .LV ∨ p.gcb = .V) → Quiet f p (u ++ v) := by
  intro u
  induction u with
  | nil => intro f p _ hp; exact quiet_post (by rcases hp with h | h | h | h <;> exact not_ctl h (by simp)) hv
  | cons x u ih =>
    intro f p hu hp
    have hu' := star_inv (P := fun c => c.gcb ∈ [GCB.T]) hu
    have hx : x.gcb = .T := by simpa using hu' x (by simp)
    refine ⟨breakB_hangul f (by rcases hp with h | h | h | h <;> simp [h, hx]), ih (star_of fun c hc => hu' c (by simp [hc]))
      (Or.inr (Or.inl hx))⟩

theorem quiet_v {t v : Text} (ht : star (gcb [.T]) t) (hv : star postcore v) : ∀ {u : Text} {f : Flags} {p : CharProps},
    star (gcb [.V]) u → (p.gcb = .LV ∨ p.gcb = .V) → Quiet f p (u ++ (t ++ v)) := by
  intro u
  induction u with
  | nil => intro f p _ hp; exact quiet_t hv ht (by rcases hp with h | h <;> simp [h])
  | cons x u ih =>
    intro f p hu hp
    have hu' := star_inv (P := fun c => c.gcb ∈ [GCB.V]) hu
    have hx : x.gcb = .V := by simpa using hu' x (by simp)
    exact ⟨breakB_hangul f (by rcases hp with h | h <;> simp [h, hx]), ih (star_of fun c hc => hu' c (by simp [hc])) (Or.inr hx)⟩

/-- The middle of a syllable. -/
def Mid : Lang := alt (plus (gcb [.V])) (alt (seq (gcb [.LV]) (star (gcb [.V]))) (gcb [.LVT]))

theorem quiet_mid {m t v : Text} (hm : Mid m) (ht : star (gcb [.T]) t) (hv : star postcore v) :
    ∃ x w, m ++ (t ++ v) = x :: w ∧ (x.gcb = .V ∨ x.gcb = .LV ∨ x.gcb = .LVT) ∧ ∀ f, Quiet f x w := by
  rcases hm with ⟨a, b, rfl, ⟨x, rfl, hx⟩, hb⟩ | ⟨a, b, rfl, ⟨x, rfl, hx⟩, hb⟩ | ⟨x, rfl, hx⟩
  · have hx : x.gcb = .V := by simpa using hx
    exact ⟨x, b ++ (t ++ v), by simp, Or.inl hx, fun f => quiet_v ht hv hb (Or.inr hx)⟩
  · have hx : x.gcb = .LV := by simpa using hx
    exact ⟨x, b ++ (t ++ v), by simp, Or.inr (Or.inl hx), fun f => quiet_v ht hv hb (Or.inl hx)⟩
  · have hx : x.gcb = .LVT := by simpa using hx
    exact ⟨x, t ++ v, by simp, Or.inr (Or.inr hx), fun f => quiet_t hv ht (Or.inl hx)⟩

theorem quiet_l {m t v : Text} (hm : Mid m) (ht : star (gcb [.T]) t) (hv : star postcore v) : ∀ {u : Text} {f : Flags}
    {p : CharProps}, star (gcb [.L]) u → p.gcb = .L → Quiet f p (u ++ (m ++ (t ++ v))) := by
  intro u
  induction u with
  | nil =>
    intro f p _ hp
    obtain ⟨x, w, e, hx, hq⟩ := quiet_mid hm ht hv
    rw [List.nil_append, e]
    exact ⟨breakB_hangul f (by rcases hx with h | h | h <;> simp [hp, h]), hq _⟩
  | cons x u ih =>
    intro f p hu hp
    have hu' := star_inv (P := fun c => c.gcb ∈ [GCB.L]) hu
    have hx : x.gcb = .L := by simpa using hu' x (by simp)
    exact ⟨breakB_hangul f (by simp [hp, hx]), ih (star_of fun c hc => hu' c (by simp [hc])) hx⟩

theorem quiet_ls {v : Text} (hv : star postcore v) : ∀ {u : Text} {f : Flags} {p : CharProps}, star (gcb [.L]) u → p.gcb = .L →
    Quiet f p (u ++ v) := by
  intro u
  induction u with
  | nil => intro f p _ hp; exact quiet_post (not_ctl hp (by simp)) hv
  | cons x u ih =>
    intro f p hu hp
    have hu' := star_inv (P := fun c => c.gcb ∈ [GCB.L]) hu
    have hx : x.gcb = .L := by simpa using hu' x (by simp)
    exact ⟨breakB_hangul f (by simp [hp, hx]), ih (star_of fun c hc => hu' c (by simp [hc])) hx⟩

/-- `Extend* ZWJ pict` -/
theorem quiet_zwj {w : Text} {z y : CharProps} (hz : z.gcb = .ZWJ) (hy : y.extPict = true) (cy : y.Consistent)
    (hw : ∀ f : Flags, f.emo = true → Quiet f y w) : ∀ {xs : Text} {f : Flags} {p : CharProps}, star (gcb [.Extend]) xs →
    ¬ p.isControl → f.emo = true → Quiet f p (xs ++ z :: y :: w) := by
  intro xs
  induction xs with
  | nil =>
    intro f p _ hp he
    refine ⟨breakB_mark f hp (by simp [hz]), quiet_break (not_ctl hz (by simp)) (not_ctl (cy.pict hy).1 (by simp))
      (Or.inr (Or.inl ⟨by simp [Flags.next, hz, he], hy⟩)), hw _ (by simp [Flags.next, hy])⟩
  | cons x xs ih =>
    intro f p hxs hp he
    have h' := star_inv (P := fun c => c.gcb ∈ [GCB.Extend]) hxs
    have hx : x.gcb = .Extend := by simpa using h' x (by simp)
    exact ⟨breakB_mark f hp (by simp [hx]), ih (star_of fun c hc => h' c (by simp [hc])) (not_ctl hx (by simp))
      (by simp [Flags.next, hx, he])⟩

theorem quiet_picts {v : Text} (hv : star postcore v) {u : Text} (hu : star (seq (star (gcb [.Extend])) (seq (gcb [.ZWJ]) pict)) u) :
    (∀ c ∈ u, c.Consistent) → ∀ {f : Flags} {p : CharProps}, ¬ p.isControl → f.emo = true → Quiet f p (u ++ v) := by
  induction hu with
  | nil => intro _ f p hp _; exact quiet_post hp hv
  | more a b ha hb ih =>
    intro hc f p hp he
    obtain ⟨xs, r, rfl, hxs, z', y', rfl, ⟨z, rfl, hz⟩, ⟨y, rfl, hy⟩⟩ := ha
    have hz : z.gcb = .ZWJ := by simpa using hz
    have cy : y.Consistent := hc y (by simp)
    have := quiet_zwj (w := b ++ v) hz hy cy
      (fun f hf => ih (fun c hcb => hc c (by simp [hcb])) (not_ctl (cy.pict hy).1 (by simp)) hf) (f := f) (p := p) hxs hp he
    simpa using this

/-- `[Extend Linker]* Consonant` after a linker -/
theorem quiet_link2 {w : Text} {y : CharProps} (hy : y.incb = .Consonant) (cy : y.Consistent)
    (hw : ∀ f : Flags, f.con = true → Quiet f y w) : ∀ {xs : Text} {f : Flags} {p : CharProps}, (∀ c ∈ xs, c.Consistent) →
    star extendLinker xs → ¬ p.isControl → f.lnk = true → Quiet f p (xs ++ y :: w) := by
  intro xs
  induction xs with
  | nil =>
    intro f p _ _ hp hl
    exact ⟨quiet_break hp (not_ctl (cy.consonant hy) (by simp)) (Or.inl ⟨hl, hy⟩), hw _ (by simp [Flags.next, hy])⟩
  | cons x xs ih =>
    intro f p hc hxs hp hl
    have h' := star_inv (P := fun c => c.incb = .Extend ∨ c.incb = .Linker) hxs
    have hx := h' x (by simp)
    have hg := (hc x (by simp)).joiner hx
    have hj : joiner x = true := (joiner_iff x).mpr hx
    refine ⟨breakB_mark f hp (by rcases hg with h | h <;> simp [h]), ih (fun c h => hc c (by simp [h]))
      (star_of fun c hc => h' c (by simp [hc])) (by rcases hg with h | h <;> exact not_ctl h (by simp)) ?_⟩
    simp [Flags.next, hj, hl]

/-- `[Extend Linker]* Linker [Extend Linker]* Consonant` -/
theorem quiet_link {w ys : Text} {l y : CharProps} (hl : l.incb = .Linker) (cl : l.Consistent) (hys : star extendLinker ys)
    (cys : ∀ c ∈ ys, c.Consistent) (hy : y.incb = .Consonant) (cy : y.Consistent)
    (hw : ∀ f : Flags, f.con = true → Quiet f y w) : ∀ {xs : Text} {f : Flags} {p : CharProps}, (∀ c ∈ xs, c.Consistent) →
    star extendLinker xs → ¬ p.isControl → f.con = true → Quiet f p (xs ++ l :: (ys ++ y :: w)) := by
  intro xs
  induction xs with
  | nil =>
    intro f p _ _ hp hf
    have hg := cl.joiner (Or.inr hl)
    refine ⟨breakB_mark f hp (by rcases hg with h | h <;> simp [h]), quiet_link2 hy cy hw cys hys
      (by rcases hg with h | h <;> exact not_ctl h (by simp)) ?_⟩
    simp [Flags.next, hl, hf]
  | cons x xs ih =>
    intro f p hc hxs hp hf
    have h' := star_inv (P := fun c => c.incb = .Extend ∨ c.incb = .Linker) hxs
    have hx := h' x (by simp)
    have hg := (hc x (by simp)).joiner hx
    have hj : joiner x = true := (joiner_iff x).mpr hx
    refine ⟨breakB_mark f hp (by rcases hg with h | h <;> simp [h]), ih (fun c h => hc c (by simp [h]))
      (star_of fun c hc => h' c (by simp [hc])) (by rcases hg with h | h <;> exact not_ctl h (by simp)) ?_⟩
    simp [Flags.next, hj, hf]

theorem quiet_links {v : Text} (hv : star postcore v) {u : Text}
    (hu : star (seq (star extendLinker) (seq linker (seq (star extendLinker) consonant))) u) :
    (∀ c ∈ u, c.Consistent) → ∀ {f : Flags} {p : CharProps}, ¬ p.isControl → f.con = true → Quiet f p (u ++ v) := by
  induction hu with
  | nil => intro _ f p hp _; exact quiet_post hp hv
  | more a b ha hb ih =>
    intro hc f p hp he
    obtain ⟨xs, r, rfl, hxs, l', r', rfl, ⟨l, rfl, hl⟩, ys, y', rfl, hys, ⟨y, rfl, hy⟩⟩ := ha
    have cy : y.Consistent := hc y (by simp)
    have := quiet_link (w := b ++ v) hl (hc l (by simp)) hys (fun c h => hc c (by simp [h])) hy cy
      (fun f hf => ih (fun c hcb => hc c (by simp [hcb])) (not_ctl (cy.consonant hy) (by simp)) hf) (xs := xs) (f := f) (p := p)
      (fun c h => hc c (by simp [h])) hxs hp he
    simpa using this

theorem quiet_core {u v : Text} (hu : core u) (hv : star postcore v) (hc : ∀ c ∈ u, c.Consistent) :
    ∃ x w, u ++ v = x :: w ∧ ¬ x.isControl ∧ ∀ f, NoMem f → Quiet (f.next x) x w := by
  rcases hu with h | h | h | h | ⟨x, rfl, hx⟩
  · rcases h with ⟨a, b, rfl, ha, m, t, rfl, hm, ht⟩ | ⟨a, b, rfl, ⟨x, rfl, hx⟩, hb⟩ | ⟨a, b, rfl, ⟨x, rfl, hx⟩, hb⟩
    · cases a with
      | nil =>
        obtain ⟨x, w, e, hx, hq⟩ := quiet_mid hm ht hv
        exact ⟨x, w, by rw [← e]; simp, by rcases hx with h | h | h <;> exact not_ctl h (by simp), fun f _ => hq _⟩
      | cons x a =>
        have ha' := star_inv (P := fun c => c.gcb ∈ [GCB.L]) ha
        have hx : x.gcb = .L := by simpa using ha' x (by simp)
        exact ⟨x, a ++ (m ++ (t ++ v)), by simp, not_ctl hx (by simp), fun f _ => quiet_l hm ht hv
          (star_of fun c hc => ha' c (by simp [hc])) hx⟩
    · have hx : x.gcb = .L := by simpa using hx
      exact ⟨x, b ++ v, by simp, not_ctl hx (by simp), fun f _ => quiet_ls hv hb hx⟩
    · have hx : x.gcb = .T := by simpa using hx
      exact ⟨x, b ++ v, by simp, not_ctl hx (by simp), fun f _ => quiet_t hv hb (Or.inr (Or.inl hx))⟩
  · obtain ⟨a, b, rfl, ⟨x, rfl, hx⟩, ⟨y, rfl, hy⟩⟩ := h
    have hx : x.gcb = .RegionalIndicator := by simpa using hx
    have hy : y.gcb = .RegionalIndicator := by simpa using hy
    refine ⟨x, y :: v, by simp, not_ctl hx (by simp), fun f hf => ⟨quiet_break (not_ctl hx (by simp)) (not_ctl hy (by simp))
      (Or.inr (Or.inr ⟨?_, hy⟩)), quiet_post (not_ctl hy (by simp)) hv⟩⟩
    simp [Flags.next, hx, hf.2.2.2.2]
  · obtain ⟨a, b, rfl, ⟨x, rfl, hx⟩, hb⟩ := h
    have cx := hc x (by simp)
    have hn := not_ctl (cx.pict hx).1 (by simp)
    exact ⟨x, b ++ v, by simp, hn, fun f hf => quiet_picts hv hb (fun c h => hc c (by simp [h])) hn (by simp [Flags.next, hx])⟩
  · obtain ⟨a, b, rfl, ⟨x, rfl, hx⟩, d, e, rfl, hd, he⟩ := h
    have cx := hc x (by simp)
    have hn := not_ctl (cx.consonant hx) (by simp)
    exact ⟨x, (d ++ e) ++ v, by simp, hn, fun f hf => quiet_links hv (.more _ _ hd he) (fun c h => hc c (by simp at h ⊢; simp [h])) hn
      (by simp [Flags.next, hx])⟩
  · exact ⟨x, v, rfl, hx, fun f _ => quiet_post hx hv⟩

theorem quiet_pre {r : Text} (hr : seq core (star postcore) r) : ∀ {u : Text}, star precore u → (∀ c ∈ u ++ r, c.Consistent) →
    ∃ x w, u ++ r = x :: w ∧ ¬ x.isControl ∧ ∀ f, NoMem f → Quiet (f.next x) x w := by
  intro u
  induction u with
  | nil =>
    intro _ hc
    obtain ⟨a, b, rfl, ha, hb⟩ := hr
    rw [List.nil_append]
    exact quiet_core ha hb fun c h => hc c (by simp [h])
  | cons x u ih =>
    intro hu hc
    have hu' := star_inv (P := fun c => c.gcb ∈ [GCB.Prepend]) hu
    have hx : x.gcb = .Prepend := by simpa using hu' x (by simp)
    obtain ⟨y, w, e, hy, hq⟩ := ih (star_of fun c hc => hu' c (by simp [hc])) fun c h => hc c (by
      rw [List.cons_append]; exact List.mem_cons_of_mem _ h)
    refine ⟨x, y :: w, by rw [← e]; rfl, not_ctl hx (by simp), fun f hf => ⟨breakB_prepend _ hx hy, hq _ ?_⟩⟩
    exact noMem_gcb hf (hc x (by simp)) (by simp [hx]) (by simp [hx])

/-- A match has no inner boundaries. -/
theorem quiet_of_egc (x : CharProps) (w : Text) (cx : x.Consistent) (hw : ∀ c ∈ w, c.Consistent) (h : egc (x :: w)) :
    Quiet (Flags.init.next x) x w := by
  rcases h with ⟨a, b, e, ⟨y, rfl, hy⟩, ⟨z, rfl, hz⟩⟩ | ⟨c, e, hc⟩ | ⟨a, b, e, ha, hb⟩
  · cases e
    exact ⟨breakB_crlf _ (by simpa using hy) (by simpa using hz), trivial⟩
  · cases e; exact trivial
  · obtain ⟨y, v, e', -, hq⟩ := quiet_pre hb ha (by
      rw [← e]; intro c hc
      rcases List.mem_cons.mp hc with rfl | hc
      · exact cx
      · exact hw c hc)
    rw [← e] at e'
    cases e'
    exact hq _ noMem_init

theorem egc_iff (x : CharProps) (w : Text) (cx : x.Consistent) (hw : ∀ c ∈ w, c.Consistent) :
    egc (x :: w) ↔ Quiet (Flags.init.next x) x w :=
  ⟨quiet_of_egc x w cx hw, egc_of_quiet x w cx hw⟩

/-! ## Segments -/

/-- The text of a list of characters. -/
abbrev props (cs : List Char) : Text := cs.map pr

theorem props_consistent (cs : List Char) : ∀ c ∈ props cs, c.Consistent := by
  intro c hc
  obtain ⟨a, -, rfl⟩ := List.mem_map.mp hc
  exact ucd_consistent _

/-- The first segment, and what the rest is cut into. -/
theorem segsFrom_first : ∀ (cs : List Char) (f : Flags) (p : Char) (cur : List Char), okF f (pr p) = true →
    ∃ u v, cs = u ++ v ∧ segsFrom f (pr p) cur cs = (cur ++ u) :: segsOf v ∧ Quiet f (pr p) (props u) ∧
      ∀ u' v', cs = u' ++ v' → Quiet f (pr p) (props u') → u'.length ≤ u.length := by
  intro cs
  induction cs with
  | nil =>
    intro f p cur _
    refine ⟨[], [], rfl, by simp [segsFrom, segsOf], trivial, ?_⟩
    intro u' v' h _
    rw [(List.append_eq_nil_iff.mp h.symm).1]
    exact Nat.le_refl _
  | cons c cs ih =>
    intro f p cur ok
    by_cases hb : breakB f (pr p) (pr c) = true
    · refine ⟨[], c :: cs, rfl, ?_, trivial, ?_⟩
      · rw [segsFrom, if_pos hb, segsOf, begin_correct f (ucd_consistent _) (ucd_consistent _) ok hb]
        rw [List.append_nil]
      · intro u' v' h hq
        cases u' with
        | nil => exact Nat.le_refl _
        | cons x u' =>
          cases h
          exact absurd hb (by rw [hq.1]; decide)
    · obtain ⟨u, v, rfl, h1, h2, h3⟩ := ih (f.next (pr c)) c (cur ++ [c]) (okF_next f (ucd_consistent _) (ucd_consistent _) ok)
      refine ⟨c :: u, v, rfl, ?_, ⟨by simpa using hb, h2⟩, ?_⟩
      · rw [segsFrom, if_neg hb, h1]; simp
      · intro u' v' h hq
        cases u' with
        | nil => simp
        | cons x u' =>
          rw [List.cons_append] at h
          obtain ⟨rfl, h'⟩ := List.cons.inj h
          have := h3 u' v' h' hq.2
          simpa using this

theorem segsOf_first (c : Char) (cs : List Char) :
    ∃ u v, cs = u ++ v ∧ segsOf (c :: cs) = (c :: u) :: segsOf v ∧ egc (props (c :: u)) ∧
      ∀ u' v', cs = u' ++ v' → egc (props (c :: u')) → u'.length ≤ u.length := by
  obtain ⟨u, v, h1, h2, h3, h4⟩ := segsFrom_first cs (Flags.init.next (pr c)) c [c] (okF_init (ucd_consistent _))
  refine ⟨u, v, h1, h2, egc_of_quiet _ _ (ucd_consistent _) (props_consistent _) h3, fun u' v' e h => h4 u' v' e ?_⟩
  exact quiet_of_egc _ _ (ucd_consistent _) (props_consistent _) h

theorem egc_nil : ¬ egc [] := by
  rintro (⟨a, b, e, ⟨y, rfl, _⟩, _⟩ | ⟨c, e, _⟩ | ⟨a, b, e, _, c, d, rfl, hc, _⟩)
  · cases e
  · cases e
  · obtain ⟨rfl, e2⟩ := List.append_eq_nil_iff.mp e.symm
    obtain ⟨rfl, rfl⟩ := List.append_eq_nil_iff.mp e2
    rcases hc with h | h | h | h | ⟨x, e, _⟩
    · rcases h with ⟨a, b, e, _, m, t, rfl, hm, _⟩ | ⟨a, b, e, ⟨x, rfl, _⟩, _⟩ | ⟨a, b, e, ⟨x, rfl, _⟩, _⟩
      · obtain ⟨rfl, e2⟩ := List.append_eq_nil_iff.mp e.symm
        obtain ⟨rfl, rfl⟩ := List.append_eq_nil_iff.mp e2
        rcases hm with ⟨a, b, e, ⟨x, rfl, _⟩, _⟩ | ⟨a, b, e, ⟨x, rfl, _⟩, _⟩ | ⟨x, e, _⟩ <;> cases e
      · cases e
      · cases e
    · obtain ⟨a, b, e, ⟨x, rfl, _⟩, _⟩ := h; cases e
    · obtain ⟨a, b, e, ⟨x, rfl, _⟩, _⟩ := h; cases e
    · obtain ⟨a, b, e, ⟨x, rfl, _⟩, _⟩ := h; cases e
    · cases e

end Textseg
