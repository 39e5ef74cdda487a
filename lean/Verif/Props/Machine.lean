import Verif.Proofs.Rules
import Verif.Proofs.Tokens
import Verif.Proofs.BreakB
import Verif.Spec.Names
/-!
# Properties of the boundary state machine (C26, C27)
-/

namespace Textseg.Props
open Spec

/-- The byte that stands for the properties of a character, made from the names of the property values with the functions
of properties.go (as gentable/generate.go does). -/
def packed (u : CharProps) : CharProperties :=
  MakeCharProperties (LookupGCBProperty (str u.gcb.ucdName))
    (if u.extPict then LookupEmojiProperty (str "Extended_Pictographic") else GCBNone)
    (LookupInCBProperty (str u.incb.ucdName))

theorem packed_eq_pack (u : CharProps) : packed u = pack u := by
  obtain ⟨g, e, i⟩ := u
  cases g <;> cases e <;> cases i <;> decide +kernel

/-- Feeding characters to the machine, always continuing with the returned state; `prev` of each call is `next` of the
call before. The list of reported splits, and the last state. -/
def feed (s : State) (prev : CharProps) : List CharProps → Go (List Bool × State)
  | [] => .ok ([], s)
  | n :: ns => do
    let (b, s') ← Transition s (packed prev) (packed n)
    let (bs, s'') ← feed s' n ns
    .ok (b :: bs, s'')

/-- Feeding characters to the machine, starting afresh with `Begin` on the next character after every split. -/
def feedRestart (s : State) (prev : CharProps) : List CharProps → Go (List Bool)
  | [] => .ok []
  | n :: ns => do
    let (b, s') ← Transition s (packed prev) (packed n)
    let s'' ← if b then Begin (packed n) else .ok s'
    let bs ← feedRestart s'' n ns
    .ok (b :: bs)

/-- `bs` are the UAX #29 decisions at the positions in `after`, one before each of its characters. -/
def Decisions (before : Text) : Text → List Bool → Prop
  | [], bs => bs = []
  | n :: ns, bs => ∃ b bs', bs = b :: bs' ∧ (b = true ↔ Boundary before (n :: ns)) ∧ Decisions (before ++ [n]) ns bs'

/-- All characters have combinations of property values that occur in the Unicode data (`Spec/Consistent.lean`). -/
def Consistent (t : Text) : Prop := ∀ c ∈ t, c.Consistent

theorem feed_within (R : Text) (p : CharProps) (ns : Text) (m : CharProps) (post : Text)
    (hR : CtxOk (p :: R)) (hns : Consistent (ns ++ [m]))
    (hno : ∀ u v, ns = u ++ v → v ≠ [] → ¬ Boundary (R.reverse ++ [p] ++ u) (v ++ m :: post)) :
    ∃ b s', feed (stateOf (flags (p :: R))) p (ns ++ [m]) = .ok (List.replicate ns.length false ++ [b], s') ∧
      (b = true ↔ Boundary (R.reverse ++ [p] ++ ns) (m :: post)) := by
  induction ns generalizing R p with
  | nil =>
    obtain ⟨s, h1, -⟩ := Transition_correct hR (hns m (by simp))
    refine ⟨brk (p :: R) m, s, ?_, ?_⟩
    · show feed _ p [m] = _
      rw [feed, packed_eq_pack, packed_eq_pack, h1]; rfl
    · rw [← boundary_iff (p :: R) m post]; simp
  | cons n ns ih =>
    have hn := hns n (by simp)
    obtain ⟨s, h1, h2⟩ := Transition_correct hR hn
    have hb : brk (p :: R) n = false := by
      rw [← Bool.not_eq_true, ← boundary_iff (p :: R) n (ns ++ m :: post)]
      have := hno [] (n :: ns) rfl (by simp)
      simpa using this
    have hR' : CtxOk (n :: p :: R) := by
      intro c hc
      rcases List.mem_cons.mp hc with rfl | hc
      · exact hn
      · exact hR c hc
    obtain ⟨b, s', h3, h4⟩ := ih (p :: R) n hR' (fun c hc => hns c (by simp at hc ⊢; exact Or.inr hc)) (by
      intro u v huv hv
      have := hno (n :: u) v (by rw [huv]; rfl) hv
      simpa using this)
    refine ⟨b, s', ?_, ?_⟩
    · rw [List.cons_append, feed, packed_eq_pack, packed_eq_pack, h1, h2 hb]
      simp only [hb, bind, Except.bind]
      rw [h3]
      simp [List.replicate_succ]
    · rw [h4]; simp

/-- C26: let `c :: cs` be the beginning of a cluster in a text: there is a boundary before `c` (or `c` is the first
character) and none within `c :: cs`, whatever comes before and after. Starting with `Begin` on `c` and feeding `cs` and
then the next character, the machine reports no split within the cluster, and before the next character it reports a split
exactly if UAX #29 demands a boundary there, in the whole text. -/
theorem C26_machine_within_a_cluster (before : Text) (c : CharProps) (cs : Text) (next : CharProps) (after : Text)
    (hc : Consistent (before ++ c :: cs ++ [next]))
    (hstart : before = [] ∨ Boundary before (c :: cs ++ next :: after))
    (hno : ∀ u v, cs = u ++ v → v ≠ [] → ¬ Boundary (before ++ c :: u) (v ++ next :: after)) :
    ∃ s split s', Begin (packed c) = .ok s ∧
      feed s c (cs ++ [next]) = .ok (List.replicate cs.length false ++ [split], s') ∧
      (split = true ↔ Boundary (before ++ c :: cs) (next :: after)) := by
  have hR : CtxOk (c :: before.reverse) := by
    intro x hx
    apply hc
    simp at hx ⊢
    rcases hx with h | h
    · exact Or.inr (Or.inl h)
    · exact Or.inl h
  have hflags : flags (c :: before.reverse) = flags [c] := by
    apply flags_restart
    · exact fun x hx => hR x (List.mem_cons_of_mem _ hx)
    · exact hR c List.mem_cons_self
    · rcases hstart with rfl | h
      · rfl
      · rw [← boundary_iff _ c (cs ++ next :: after)]
        simpa using h
  obtain ⟨b, s', h1, h2⟩ := feed_within before.reverse c cs next after hR
    (fun x hx => hc x (by simp at hx ⊢; rcases hx with h | h <;> simp [h])) (by
      intro u v huv hv
      have := hno u v huv hv
      simpa using this)
  refine ⟨stateOf (flags [c]), b, s', ?_, ?_, ?_⟩
  · rw [packed_eq_pack]
    exact Begin_eq (hR c List.mem_cons_self)
  · rw [← hflags]; exact h1
  · rw [h2]; simp

theorem feedRestart_correct (R : Text) (p : CharProps) (ns : Text) (h : CtxOk (p :: R)) (hns : Consistent ns) :
    ∃ bs, feedRestart (stateOf (flags (p :: R))) p ns = .ok bs ∧ Decisions (p :: R).reverse ns bs := by
  induction ns generalizing R p with
  | nil => exact ⟨[], rfl, rfl⟩
  | cons n ns ih =>
    have hn := hns n (by simp)
    obtain ⟨s, h1, h2⟩ := Transition_correct h hn
    have hR' : CtxOk (n :: p :: R) := by
      intro c hc
      rcases List.mem_cons.mp hc with rfl | hc
      · exact hn
      · exact h c hc
    obtain ⟨bs, h3, h4⟩ := ih (p :: R) n hR' (fun c hc => hns c (by simp [hc]))
    refine ⟨brk (p :: R) n :: bs, ?_, _, _, rfl, (boundary_iff _ n ns).symm, ?_⟩
    · rw [feedRestart, packed_eq_pack, packed_eq_pack, h1]
      simp only [bind, Except.bind]
      cases hb : brk (p :: R) n
      · simp only [Bool.false_eq_true, if_false, h2 hb]
        rw [h3]
      · simp only [if_true]
        rw [Begin_eq hn]
        simp only
        rw [show flags (n :: p :: R) = flags [n] from flags_restart h hn hb] at h3
        rw [show (Flags.init.next n) = flags [n] from rfl, h3]
    · simpa using h4

/-- C27, the part that holds for every text: the reported splits are exactly the UAX #29 boundaries if the machine is
started afresh with `Begin` after every split, as ScanGraphemeClusters does. The full claim is the same for `feed`, which
always continues with the returned state; it is false (`C27_continuing_is_wrong`). -/
theorem C27_restarting_at_splits_partial (c : CharProps) (cs : Text) (hc : Consistent (c :: cs)) :
    ∃ s bs, Begin (packed c) = .ok s ∧ feedRestart s c cs = .ok bs ∧ Decisions [c] cs bs := by
  have h1 : CtxOk [c] := fun x hx => hc x (by simp at hx; simp [hx])
  obtain ⟨bs, h2, h3⟩ := feedRestart_correct [] c cs h1 (fun x hx => hc x (by simp [hx]))
  refine ⟨_, bs, ?_, h2, h3⟩
  rw [packed_eq_pack]
  exact Begin_eq (h1 c (by simp))

/-- C27 is false of the code: after KA (an Indic consonant) the machine, continuing with the returned state, separates two
regional indicators; so does it after a pictograph. UAX #29 keeps them together (GB13). -/
theorem C27_continuing_is_wrong :
    (∃ s, Begin (packed (ucd 0x915)) = .ok s ∧
      feed s (ucd 0x915) [ucd 0x1F1E6, ucd 0x1F1E7] = .ok ([true, true], StateAwaitEmojiFlag)) ∧
    (∃ s, Begin (packed (ucd 0x1F469)) = .ok s ∧
      feed s (ucd 0x1F469) [ucd 0x1F1E6, ucd 0x1F1E7] = .ok ([true, true], StateAwaitEmojiFlag)) ∧
    ¬ Boundary [ucd 0x915, ucd 0x1F1E6] [ucd 0x1F1E7] ∧ ¬ Boundary [ucd 0x1F469, ucd 0x1F1E6] [ucd 0x1F1E7] := by
  refine ⟨⟨StateGB9cConsonant, by decide +kernel, by decide +kernel⟩,
    ⟨StateGB11BeforeZWJ, by decide +kernel, by decide +kernel⟩, ?_, ?_⟩
  · have := boundary_iff [ucd 0x1F1E6, ucd 0x915] (ucd 0x1F1E7) []
    rw [show ([ucd 0x1F1E6, ucd 0x915]).reverse = [ucd 0x915, ucd 0x1F1E6] from rfl] at this
    rw [this]; decide +kernel
  · have := boundary_iff [ucd 0x1F1E6, ucd 0x1F469] (ucd 0x1F1E7) []
    rw [show ([ucd 0x1F1E6, ucd 0x1F469]).reverse = [ucd 0x1F469, ucd 0x1F1E6] from rfl] at this
    rw [this]; decide +kernel

/-- A regional indicator comes directly after a pictograph, an Indic consonant, an Extend or a ZWJ. -/
def RIAfterJoinable (t : Text) : Prop :=
  ∃ pre p n post, t = pre ++ p :: n :: post ∧ n.gcb = .RegionalIndicator ∧
    (p.extPict = true ∨ p.incb = .Consonant ∨ p.gcb = .Extend ∨ p.gcb = .ZWJ)

def joinable (p : CharProps) : Bool := p.extPict || p.incb == .Consonant || p.gcb == .Extend || p.gcb == .ZWJ

/-- Without such a place, the machine follows the facts also across splits. -/
theorem next_correct_noRI (f : Flags) {p n : CharProps} (hp : p.Consistent) (hn : n.Consistent) (hf : okF f p = true)
    (hj : (n.gcb == .RegionalIndicator && joinable p) = false) : nextS (stateOf f) n = stateOf (f.next n) := by
  have := allFlags_sound (allProps_sound (allProps_sound (q := fun p => allProps fun n => allFlags fun f => !okF f p ||
    (n.gcb == .RegionalIndicator && joinable p) || nextS (stateOf f) n == stateOf (f.next n)) (by decide +kernel) hp) hn) f
  rw [hf, hj] at this
  exact LawfulBEq.eq_of_beq this

theorem feed_correct (R : Text) (p : CharProps) (ns : Text) (h : CtxOk (p :: R)) (hns : Consistent ns)
    (hj : ¬ RIAfterJoinable (p :: ns)) :
    ∃ bs s', feed (stateOf (flags (p :: R))) p ns = .ok (bs, s') ∧ Decisions (p :: R).reverse ns bs := by
  induction ns generalizing R p with
  | nil => exact ⟨[], _, rfl, rfl⟩
  | cons n ns ih =>
    have hn := hns n (by simp)
    have hp := h p (by simp)
    have hf := okF_flags h
    have hR' : CtxOk (n :: p :: R) := by
      intro c hc
      rcases List.mem_cons.mp hc with rfl | hc
      · exact hn
      · exact h c hc
    have hj0 : (n.gcb == .RegionalIndicator && joinable p) = false := by
      rw [← Bool.not_eq_true]
      intro hx
      simp only [joinable, Bool.and_eq_true, Bool.or_eq_true, beq_iff_eq] at hx
      exact hj ⟨[], p, n, ns, rfl, hx.1, by
        rcases hx.2 with ((h | h) | h) | h <;> simp [h]⟩
    obtain ⟨bs, s', h3, h4⟩ := ih (p :: R) n hR' (fun c hc => hns c (by simp [hc])) (by
      rintro ⟨pre, a, b, post, h5, h6⟩
      exact hj ⟨p :: pre, a, b, post, by rw [h5]; rfl, h6⟩)
    refine ⟨brk (p :: R) n :: bs, s', ?_, _, _, rfl, (boundary_iff _ n ns).symm, ?_⟩
    · have h1 : Transition (stateOf (flags (p :: R))) (pack p) (pack n) =
          .ok (brk (p :: R) n, stateOf (flags (n :: p :: R))) := by
        rw [Transition, nextState_eq _ hn, split_correct _ hp hn hf, next_correct_noRI _ hp hn hf hj0]; rfl
      rw [feed, packed_eq_pack, packed_eq_pack, h1]
      simp only [bind, Except.bind]
      rw [h3]
    · simpa using h4

/-- C27, the part that holds when always continuing with the returned state: exactly the UAX #29 boundaries, for every
text in which no regional indicator comes directly after a pictograph, an Indic consonant, an Extend or a ZWJ. -/
theorem C27_continuing_partial (c : CharProps) (cs : Text) (hc : Consistent (c :: cs)) (hj : ¬ RIAfterJoinable (c :: cs)) :
    ∃ s bs s', Begin (packed c) = .ok s ∧ feed s c cs = .ok (bs, s') ∧ Decisions [c] cs bs := by
  have h1 : CtxOk [c] := fun x hx => hc x (by simp at hx; simp [hx])
  obtain ⟨bs, s', h2, h3⟩ := feed_correct [] c cs h1 (fun x hx => hc x (by simp [hx])) hj
  refine ⟨_, bs, s', ?_, h2, h3⟩
  rw [packed_eq_pack]
  exact Begin_eq (h1 c (by simp))

/-! ## C46 -/

/-- The text ends in something that rule GB9c or GB11 keeps track of: ExtPict Extend*, ExtPict Extend* ZWJ, or
Consonant [Extend Linker]*. -/
def EndsInTracked (t : Text) : Prop :=
  (∃ pre p xs, t = pre ++ [p] ++ xs ∧ p.extPict = true ∧ ∀ x ∈ xs, x.gcb = .Extend) ∨
  (∃ pre p xs z, t = pre ++ [p] ++ xs ++ [z] ∧ p.extPict = true ∧ (∀ x ∈ xs, x.gcb = .Extend) ∧ z.gcb = .ZWJ) ∨
  (∃ pre c xs, t = pre ++ [c] ++ xs ∧ c.incb = .Consonant ∧ ∀ x ∈ xs, x.incb = .Extend ∨ x.incb = .Linker)

/-- The position is between two regional indicators of a run that comes directly after something tracked. -/
def InShiftedRun (before after : Text) : Prop :=
  (∃ pre rs, before = pre ++ rs ∧ rs ≠ [] ∧ (∀ r ∈ rs, r.gcb = .RegionalIndicator) ∧ EndsInTracked pre) ∧
  StartsWith after (·.gcb = .RegionalIndicator)

/-- `bs` are the decisions before each of the characters `ns` that the continuing machine takes after `before`: those of
UAX #29, except that they are reversed within shifted runs. -/
def ShiftedDecisions (before : Text) : Text → List Bool → Prop
  | [], bs => bs = []
  | n :: ns, bs => ∃ b bs', bs = b :: bs' ∧
      (b = true ↔ (Boundary before (n :: ns) ↔ ¬ InShiftedRun before (n :: ns))) ∧ ShiftedDecisions (before ++ [n]) ns bs'

def tracked (f : Flags) : Bool := f.emo || f.emoZ || f.con

/-- On a reversed text. -/
def shifted : Text → Bool
  | [] => false
  | x :: R => x.gcb == .RegionalIndicator && (tracked (flags R) || shifted R)

def shiftF (f : Flags) (sh : Bool) : Flags := { f with ri := f.ri ^^ sh }

theorem shift_next (f : Flags) (sh : Bool) {p n : CharProps} (hp : p.Consistent) (hn : n.Consistent) (hf : okF f p = true)
    (hs : sh = true → p.gcb = .RegionalIndicator) :
    nextS (stateOf (shiftF f sh)) n = stateOf (shiftF (f.next n) (n.gcb == .RegionalIndicator && (tracked f || sh))) := by
  have h : (!sh || p.gcb == .RegionalIndicator) = true := by cases sh <;> simp_all
  have := allFlags_sound (allProps_sound (allProps_sound (q := fun p => allProps fun n => allFlags fun f => !okF f p || allBool fun sh =>
    !(!sh || p.gcb == .RegionalIndicator) ||
    nextS (stateOf (shiftF f sh)) n == stateOf (shiftF (f.next n) (n.gcb == .RegionalIndicator && (tracked f || sh))))
    (by decide +kernel) hp) hn) f
  rw [hf] at this
  simp only [allBool, Bool.and_eq_true, Bool.not_true, Bool.false_or] at this
  cases sh
  · simpa using this.1
  · have h2 := this.2
    rw [hs rfl] at h2
    simpa using h2

theorem shift_okF (f : Flags) (sh : Bool) {p : CharProps} (hf : okF f p = true) (hs : sh = true → p.gcb = .RegionalIndicator) :
    okF (shiftF f sh) p = true := by
  cases sh
  · simpa [shiftF] using hf
  · have := hs rfl
    simp only [okF, shiftF, Bool.and_eq_true] at hf ⊢
    refine ⟨hf.1, ?_⟩
    rw [this]; simp

theorem shift_break (f : Flags) (sh : Bool) {p n : CharProps} (hn : n.Consistent)
    (hs : sh = true → p.gcb = .RegionalIndicator) :
    breakB (shiftF f sh) p n = (breakB f p n ^^ (sh && n.gcb == .RegionalIndicator)) := by
  cases sh
  · simp [shiftF]
  · have hp := hs rfl
    by_cases h : n.gcb = .RegionalIndicator
    · rw [breakB_ri _ hn hp h, breakB_ri _ hn hp h]
      simp [shiftF, h]
    · have : (n.gcb == .RegionalIndicator) = false := by simpa using h
      rw [this]
      simp [breakB, shiftF, this]

theorem tracked_iff (R : Text) : tracked (flags R) = true ↔ EndsInTracked R.reverse := by
  unfold tracked EndsInTracked
  rw [Bool.or_eq_true, Bool.or_eq_true, emo_iff, emoZ_iff, con_iff, or_assoc]
  refine or_congr ?_ (or_congr ?_ ?_)
  · constructor
    · rintro ⟨xs, p, pre, rfl, h1, h2⟩
      exact ⟨pre.reverse, p, xs.reverse, by simp, h1, fun x hx => h2 x (by simpa using hx)⟩
    · rintro ⟨pre, p, xs, h, h1, h2⟩
      exact ⟨xs.reverse, p, pre.reverse, by rw [List.reverse_eq_iff] at h; rw [h]; simp, h1, fun x hx => h2 x (by simpa using hx)⟩
  · constructor
    · rintro ⟨z, xs, p, pre, rfl, h1, h2, h3⟩
      exact ⟨pre.reverse, p, xs.reverse, z, by simp, h1, fun x hx => h2 x (by simpa using hx), h3⟩
    · rintro ⟨pre, p, xs, z, h, h1, h2, h3⟩
      exact ⟨z, xs.reverse, p, pre.reverse, by rw [List.reverse_eq_iff] at h; rw [h]; simp, h1, fun x hx => h2 x (by simpa using hx), h3⟩
  · constructor
    · rintro ⟨xs, p, pre, rfl, h1, h2⟩
      exact ⟨pre.reverse, p, xs.reverse, by simp, h1, fun x hx => h2 x (by simpa using hx)⟩
    · rintro ⟨pre, p, xs, h, h1, h2⟩
      exact ⟨xs.reverse, p, pre.reverse, by rw [List.reverse_eq_iff] at h; rw [h]; simp, h1, fun x hx => h2 x (by simpa using hx)⟩

theorem shifted_iff (R : Text) : shifted R = true ↔
    ∃ rs pre, R = rs ++ pre ∧ rs ≠ [] ∧ (∀ r ∈ rs, r.gcb = .RegionalIndicator) ∧ tracked (flags pre) = true := by
  induction R with
  | nil =>
    constructor
    · intro h; cases h
    · rintro ⟨rs, pre, h, h1, _⟩
      simp at h
      exact absurd h.1 h1
  | cons x R ih =>
    rw [shifted, Bool.and_eq_true, Bool.or_eq_true, ih, beq_iff_eq]
    constructor
    · rintro ⟨h1, h2 | ⟨rs, pre, rfl, h2, h3, h4⟩⟩
      · exact ⟨[x], R, rfl, by simp, by simpa using h1, h2⟩
      · exact ⟨x :: rs, pre, rfl, by simp, by simpa using ⟨h1, h3⟩, h4⟩
    · rintro ⟨rs, pre, h, h1, h2, h3⟩
      match rs, h1 with
      | r :: rs, _ =>
        simp only [List.cons_append, List.cons.injEq] at h
        obtain ⟨rfl, rfl⟩ := h
        refine ⟨h2 x List.mem_cons_self, ?_⟩
        by_cases h0 : rs = []
        · subst h0; exact .inl h3
        · exact .inr ⟨rs, pre, rfl, h0, fun r hr => h2 r (List.mem_cons_of_mem _ hr), h3⟩

theorem inShiftedRun_iff (R : Text) (n : CharProps) (ns : Text) :
    InShiftedRun R.reverse (n :: ns) ↔ (shifted R && n.gcb == .RegionalIndicator) = true := by
  unfold InShiftedRun
  rw [startsWith_cons, Bool.and_eq_true, shifted_iff, beq_iff_eq]
  refine and_congr_left fun _ => ?_
  constructor
  · rintro ⟨pre, rs, h, h1, h2, h3⟩
    rw [List.reverse_eq_iff, List.reverse_append] at h
    refine ⟨rs.reverse, pre.reverse, h, by simpa using h1, fun r hr => h2 r (by simpa using hr), ?_⟩
    rw [tracked_iff]; simpa using h3
  · rintro ⟨rs, pre, rfl, h1, h2, h3⟩
    exact ⟨pre.reverse, rs.reverse, by simp, by simpa using h1, fun r hr => h2 r (by simpa using hr), (tracked_iff _).mp h3⟩

theorem feed_shifted (R : Text) (p : CharProps) (ns : Text) (h : CtxOk (p :: R)) (hns : Consistent ns) :
    ∃ bs s', feed (stateOf (shiftF (flags (p :: R)) (shifted (p :: R)))) p ns = .ok (bs, s') ∧
      ShiftedDecisions (p :: R).reverse ns bs := by
  induction ns generalizing R p with
  | nil => exact ⟨[], _, rfl, rfl⟩
  | cons n ns ih =>
    have hn := hns n (by simp)
    have hp := h p (by simp)
    have hf := okF_flags h
    have hR' : CtxOk (n :: p :: R) := by
      intro c hc
      rcases List.mem_cons.mp hc with rfl | hc
      · exact hn
      · exact h c hc
    have hs : shifted (p :: R) = true → p.gcb = .RegionalIndicator := by
      intro hx
      rw [shifted, Bool.and_eq_true, beq_iff_eq] at hx
      exact hx.1
    obtain ⟨bs, s', h3, h4⟩ := ih (p :: R) n hR' (fun c hc => hns c (by simp [hc]))
    refine ⟨(brk (p :: R) n ^^ (shifted (p :: R) && n.gcb == .RegionalIndicator)) :: bs, s', ?_, _, _, rfl, ?_, by simpa using h4⟩
    · have h1 : Transition (stateOf (shiftF (flags (p :: R)) (shifted (p :: R)))) (pack p) (pack n) =
          .ok (brk (p :: R) n ^^ (shifted (p :: R) && n.gcb == .RegionalIndicator),
            stateOf (shiftF (flags (n :: p :: R)) (shifted (n :: p :: R)))) := by
        rw [Transition, nextState_eq _ hn, split_correct _ hp hn (shift_okF _ _ hf hs), shift_next _ _ hp hn hf hs,
          shift_break _ _ hn hs]
        rfl
      rw [feed, packed_eq_pack, packed_eq_pack, h1]
      simp only [bind, Except.bind]
      rw [h3]
    · rw [boundary_iff, inShiftedRun_iff]
      cases brk (p :: R) n <;> cases (shifted (p :: R) && n.gcb == .RegionalIndicator) <;> simp

/-- C46: what the machine reports when it always continues with the returned state, for every text: exactly the UAX #29
boundaries, except within a run of regional indicators that comes directly after ExtPict Extend*, ExtPict Extend* ZWJ or
Consonant [Extend Linker]*: there it pairs the second with the third, the fourth with the fifth and so on, so that every
decision between two of them is reversed. -/
theorem C46_continuing_exactly (c : CharProps) (cs : Text) (hc : Consistent (c :: cs)) :
    ∃ s bs s', Begin (packed c) = .ok s ∧ feed s c cs = .ok (bs, s') ∧ ShiftedDecisions [c] cs bs := by
  have h1 : CtxOk [c] := fun x hx => hc x (by simp at hx; simp [hx])
  obtain ⟨bs, s', h2, h3⟩ := feed_shifted [] c cs h1 (fun x hx => hc x (by simp [hx]))
  refine ⟨_, bs, s', ?_, h2, h3⟩
  rw [packed_eq_pack, Begin_eq (h1 c (by simp))]
  congr 2
  have : shifted [c] = false := by simp [shifted, flags, tracked, Flags.init]
  rw [this]
  simp [shiftF, flags]

theorem shiftedDecisions_length {before ns : Text} {bs : List Bool} (h : ShiftedDecisions before ns bs) : bs.length = ns.length := by
  induction ns generalizing before bs with
  | nil => rw [show bs = [] from h]; rfl
  | cons n ns ih =>
    obtain ⟨b, bs', rfl, _, h⟩ := h
    rw [List.length_cons, List.length_cons, ih h]

theorem shiftedDecisions_get {before ns : Text} {bs : List Bool} (h : ShiftedDecisions before ns bs) (u : Text) (n : CharProps)
    (v : Text) (e : ns = u ++ n :: v) :
    bs[u.length]? = some true ↔ (Boundary (before ++ u) (n :: v) ↔ ¬ InShiftedRun (before ++ u) (n :: v)) := by
  induction u generalizing before ns bs with
  | nil =>
    subst e
    obtain ⟨b, bs', rfl, h, _⟩ := h
    simpa using h
  | cons x u ih =>
    subst e
    obtain ⟨b, bs', rfl, _, h⟩ := h
    have := ih h rfl
    simpa using this

/-- C46: so the machine, continuing, is right about a whole text exactly if the text has no two regional indicators in a row
of which the first is in such a run. -/
theorem C46_right_iff (c : CharProps) (cs : Text) (hc : Consistent (c :: cs)) :
    ∃ s bs s', Begin (packed c) = .ok s ∧ feed s c cs = .ok (bs, s') ∧ bs.length = cs.length ∧
      ((∀ u n v, cs = u ++ n :: v → (bs[u.length]? = some true ↔ Boundary (c :: u) (n :: v))) ↔
        ¬ ∃ u n v, cs = u ++ n :: v ∧ InShiftedRun (c :: u) (n :: v)) := by
  obtain ⟨s, bs, s', h1, h2, h3⟩ := C46_continuing_exactly c cs hc
  refine ⟨s, bs, s', h1, h2, shiftedDecisions_length h3, ?_, ?_⟩
  · rintro h ⟨u, n, v, e, hs⟩
    have k1 := h u n v e
    have k2 := shiftedDecisions_get h3 u n v e
    rw [k1] at k2
    simp only [List.cons_append, List.nil_append, hs, not_true, iff_false] at k2
    by_cases hb : Boundary (c :: u) (n :: v)
    · exact (k2.mp hb) hb
    · exact hb (k2.mpr hb)
  · intro h u n v e
    have k2 := shiftedDecisions_get h3 u n v e
    have : ¬ InShiftedRun (c :: u) (n :: v) := fun hs => h ⟨u, n, v, e, hs⟩
    rw [k2]
    simp [this]

/-- A text with a shifted run. -/
example : InShiftedRun [ucd 0x61, ucd 0x915, ucd 0x1F1E6] [ucd 0x1F1E7] :=
  ⟨⟨[ucd 0x61, ucd 0x915], [ucd 0x1F1E6], rfl, by simp, by decide +kernel,
    .inr (.inr ⟨[ucd 0x61], ucd 0x915, [], rfl, by decide +kernel, by simp⟩)⟩, ucd 0x1F1E7, [], rfl, by decide +kernel⟩

/-- The hypotheses hold for every text of Unicode characters: the property values of the data files are consistent. -/
theorem C26_every_text_is_consistent (cs : List Nat) : Consistent (cs.map ucd) := by
  intro c hc
  obtain ⟨x, -, rfl⟩ := List.mem_map.mp hc
  exact ucd_consistent x

/-- A case of C26 with a context: "a", then woman ZWJ laptop, then "b". -/
example : (∃ s, Begin (packed (ucd 0x1F469)) = .ok s ∧
    feed s (ucd 0x1F469) [ucd 0x200D, ucd 0x1F4BB, ucd 0x62] = .ok ([false, false, true], StateBase)) := by
  refine ⟨StateGB11BeforeZWJ, by decide +kernel, by decide +kernel⟩

/-- Two flags after "a" have no regional indicator after a joinable character. -/
example : ¬ RIAfterJoinable [ucd 0x61, ucd 0x1F1E6, ucd 0x1F1E7, ucd 0x1F1E6, ucd 0x1F1E7] := by
  rw [show ucd 0x61 = ⟨.Other, false, .None⟩ by decide +kernel,
    show ucd 0x1F1E6 = ⟨.RegionalIndicator, false, .None⟩ by decide +kernel,
    show ucd 0x1F1E7 = ⟨.RegionalIndicator, false, .None⟩ by decide +kernel]
  rintro ⟨pre, p, n, post, h, h1, h2⟩
  match pre, h with
  | [], h => cases h; simp at h2
  | [_], h => cases h; simp at h2
  | [_, _], h => cases h; simp at h2
  | [_, _, _], h => cases h; simp at h2
  | _ :: _ :: _ :: _ :: pre, h =>
    have := congrArg List.length h
    simp at this
    omega

end Textseg.Props
