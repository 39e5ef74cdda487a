import Verif.Proofs.Consistent
import Verif.Model.Machine
/-!
# The state machine against the rules of UAX #29

The context of a position is kept as a reversed list (last character first). Five facts about it decide the rules.
-/

namespace Textseg
open Spec

/-- What the rules with unbounded look-behind need to know. -/
structure Flags where
  /-- ends in ExtPict Extend* -/
  emo : Bool
  /-- ends in ExtPict Extend* ZWJ -/
  emoZ : Bool
  /-- ends in Consonant [Extend Linker]* -/
  con : Bool
  /-- ends in Consonant [Extend Linker]* Linker [Extend Linker]* -/
  lnk : Bool
  /-- ends in an odd number of regional indicators -/
  ri : Bool
deriving DecidableEq

def joiner (x : CharProps) : Bool := x.incb == .Extend || x.incb == .Linker

/-- The facts after one more character. -/
def Flags.next (f : Flags) (x : CharProps) : Flags where
  emo := x.extPict || (x.gcb == .Extend && f.emo)
  emoZ := x.gcb == .ZWJ && f.emo
  con := x.incb == .Consonant || (joiner x && f.con)
  lnk := (x.incb == .Linker && f.con) || (joiner x && f.lnk)
  ri := x.gcb == .RegionalIndicator && !f.ri

def Flags.init : Flags := ⟨false, false, false, false, false⟩

/-- The facts about a reversed context. -/
def flags : Text → Flags
  | [] => .init
  | x :: R => (flags R).next x

/-- The state that stands for the facts. -/
def stateOf (f : Flags) : State :=
  if f.emo then StateGB11BeforeZWJ else if f.emoZ then StateGB11AfterZWJ else if f.lnk then StateGB9cLinker
  else if f.con then StateGB9cConsonant else if f.ri then StateAwaitEmojiFlag else StateBase

def isCtl (x : CharProps) : Bool := x.gcb == .Control || x.gcb == .CR || x.gcb == .LF

/-- The decision before character `n`, after character `p`, with facts `f` about the context (which ends in `p`). -/
def breakB (f : Flags) (p n : CharProps) : Bool :=
  !(p.gcb == .CR && n.gcb == .LF) &&
  (isCtl p || isCtl n ||
   !((p.gcb == .L && (n.gcb == .L || n.gcb == .V || n.gcb == .LV || n.gcb == .LVT)) ||
     ((p.gcb == .LV || p.gcb == .V) && (n.gcb == .V || n.gcb == .T)) ||
     ((p.gcb == .LVT || p.gcb == .T) && n.gcb == .T) ||
     (n.gcb == .Extend || n.gcb == .ZWJ) || n.gcb == .SpacingMark || p.gcb == .Prepend ||
     (f.lnk && n.incb == .Consonant) || (f.emoZ && n.extPict) || (f.ri && n.gcb == .RegionalIndicator)))

/-! ## The machine agrees, by inspection of the finitely many combinations of properties and facts -/

/-- Facts that are possible for a context ending in `p`. -/
def okF (f : Flags) (p : CharProps) : Bool :=
  (!f.emo || p.extPict || p.gcb == .Extend) && (!f.emo || !f.con) &&
  (!f.emoZ || p.gcb == .ZWJ) && (!f.emoZ || !f.con) &&
  (!f.con || p.incb == .Consonant || joiner p) &&
  (!f.lnk || (f.con && joiner p)) && (!f.ri || p.gcb == .RegionalIndicator)

def allBool (q : Bool → Bool) : Bool := q false && q true
def allFlags (q : Flags → Bool) : Bool :=
  allBool fun a => allBool fun b => allBool fun c => allBool fun d => allBool fun e => q ⟨a, b, c, d, e⟩

theorem allFlags_sound {q : Flags → Bool} (h : allFlags q = true) (f : Flags) : q f = true := by
  obtain ⟨a, b, c, d, e⟩ := f
  simp only [allFlags, allBool, Bool.and_eq_true] at h
  cases a <;> cases b <;> cases c <;> cases d <;> cases e <;> simp only [h]

def allProps (q : CharProps → Bool) : Bool := consistentList.all q

theorem allProps_sound {q : CharProps → Bool} (h : allProps q = true) {p : CharProps} (hp : p.Consistent) :
    q p = true := List.all_eq_true.mp h p (mem_consistentList hp)

/-- `nextState` on property values. -/
def nextS (s : State) (n : CharProps) : State :=
  if n.extPict then StateGB11BeforeZWJ
  else if n.incb == .Consonant then StateGB9cConsonant
  else if s == StateGB11BeforeZWJ then
    if n.gcb == .ZWJ then StateGB11AfterZWJ else if n.gcb == .Extend then StateGB11BeforeZWJ else StateBase
  else if s == StateGB9cConsonant then
    if n.incb == .Linker then StateGB9cLinker else if n.incb == .Extend then StateGB9cConsonant else StateBase
  else if s == StateGB9cLinker then if joiner n then StateGB9cLinker else StateBase
  else if s == StateBase then if n.gcb == .RegionalIndicator then StateAwaitEmojiFlag else StateBase
  else StateBase

def allStates (q : State → Bool) : Bool := [StateBase, StateAwaitEmojiFlag, StateGB11BeforeZWJ, StateGB11AfterZWJ,
  StateGB9cConsonant, StateGB9cLinker].all q

theorem allStates_sound {q : State → Bool} (h : allStates q = true) (f : Flags) : q (stateOf f) = true := by
  simp only [allStates, List.all_cons, Bool.and_eq_true] at h
  unfold stateOf
  split
  · exact h.2.2.1
  · split
    · exact h.2.2.2.1
    · split
      · exact h.2.2.2.2.2.1
      · split
        · exact h.2.2.2.2.1
        · split
          · exact h.2.1
          · exact h.1

def isOkState (r : Go State) (s : State) : Bool := match r with | .ok t => t == s | .error _ => false
theorem isOkState_sound {r : Go State} {s : State} (h : isOkState r s = true) : r = .ok s := by
  unfold isOkState at h
  split at h
  · rw [LawfulBEq.eq_of_beq h]
  · cases h

theorem nextState_eq (f : Flags) {n : CharProps} (hn : n.Consistent) :
    nextState (stateOf f) (pack n) = .ok (nextS (stateOf f) n) :=
  isOkState_sound <| allStates_sound (q := fun s => isOkState (nextState s (pack n)) (nextS s n))
    (allProps_sound (q := fun n => allStates fun s => isOkState (nextState s (pack n)) (nextS s n)) (by decide +kernel) hn) f

/-- The split decision depends on the state only through three questions. -/
theorem transitionSplit_eq (f : Flags) {p n : CharProps} (hp : p.Consistent) (hn : n.Consistent) :
    transitionSplit (stateOf f) (pack p) (pack n) =
      breakB ⟨false, stateOf f == StateGB11AfterZWJ && p.gcb == .ZWJ, false,
        stateOf f == StateGB9cLinker && joiner p, stateOf f == StateAwaitEmojiFlag && p.gcb == .RegionalIndicator⟩ p n := by
  have := allStates_sound (allProps_sound (allProps_sound (q := fun p => allProps fun n => allStates fun s =>
    transitionSplit s (pack p) (pack n) == breakB ⟨false, s == StateGB11AfterZWJ && p.gcb == .ZWJ, false,
        s == StateGB9cLinker && joiner p, s == StateAwaitEmojiFlag && p.gcb == .RegionalIndicator⟩ p n)
    (by decide +kernel) hp) hn) f
  exact LawfulBEq.eq_of_beq this

theorem split_correct (f : Flags) {p n : CharProps} (hp : p.Consistent) (hn : n.Consistent) (hf : okF f p = true) :
    transitionSplit (stateOf f) (pack p) (pack n) = breakB f p n := by
  rw [transitionSplit_eq f hp hn]
  have := allFlags_sound (allProps_sound (allProps_sound (q := fun p => allProps fun n => allFlags fun f => !okF f p ||
    breakB ⟨false, stateOf f == StateGB11AfterZWJ && p.gcb == .ZWJ, false,
        stateOf f == StateGB9cLinker && joiner p, stateOf f == StateAwaitEmojiFlag && p.gcb == .RegionalIndicator⟩ p n
    == breakB f p n) (by decide +kernel) hp) hn) f
  rw [hf] at this
  exact LawfulBEq.eq_of_beq this

theorem okF_next (f : Flags) {p n : CharProps} (hp : p.Consistent) (hn : n.Consistent) (hf : okF f p = true) :
    okF (f.next n) n = true := by
  have := allFlags_sound (allProps_sound (allProps_sound (q := fun p => allProps fun n => allFlags fun f => !okF f p ||
    okF (f.next n) n) (by decide +kernel) hp) hn) f
  rw [hf] at this
  exact this

theorem okF_init {n : CharProps} (hn : n.Consistent) : okF (Flags.init.next n) n = true :=
  allProps_sound (q := fun n => okF (Flags.init.next n) n) (by decide +kernel) hn

/-- As long as there is no split, the machine follows the facts. -/
theorem next_correct (f : Flags) {p n : CharProps} (hp : p.Consistent) (hn : n.Consistent) (hf : okF f p = true)
    (hb : breakB f p n = false) : nextS (stateOf f) n = stateOf (f.next n) := by
  have := allFlags_sound (allProps_sound (allProps_sound (q := fun p => allProps fun n => allFlags fun f => !okF f p ||
    breakB f p n || nextS (stateOf f) n == stateOf (f.next n)) (by decide +kernel) hp) hn) f
  rw [hf, hb] at this
  exact LawfulBEq.eq_of_beq this

/-- At a split, starting afresh loses nothing. -/
theorem begin_correct (f : Flags) {p n : CharProps} (hp : p.Consistent) (hn : n.Consistent) (hf : okF f p = true)
    (hb : breakB f p n = true) : f.next n = Flags.init.next n := by
  have := allFlags_sound (allProps_sound (allProps_sound (q := fun p => allProps fun n => allFlags fun f => !okF f p ||
    !breakB f p n || f.next n == Flags.init.next n) (by decide +kernel) hp) hn) f
  rw [hf, hb] at this
  exact LawfulBEq.eq_of_beq this

theorem nextS_init {n : CharProps} (hn : n.Consistent) : nextS StateBase n = stateOf (Flags.init.next n) :=
  LawfulBEq.eq_of_beq
    (allProps_sound (q := fun n => nextS StateBase n == stateOf (Flags.init.next n)) (by decide +kernel) hn)

theorem Begin_eq {n : CharProps} (hn : n.Consistent) : Begin (pack n) = .ok (stateOf (Flags.init.next n)) := by
  have := nextState_eq Flags.init hn
  rw [show stateOf Flags.init = StateBase from rfl] at this
  rw [Begin, this, nextS_init hn]

theorem pack_ne_error {p : CharProps} (hp : p.Consistent) : pack p ≠ ErrorProps :=
  of_decide_eq_true (allProps_sound (q := fun p => decide (pack p ≠ ErrorProps)) (by decide +kernel) hp)

/-- Within contexts of consistent characters. -/
def CtxOk (R : Text) : Prop := ∀ c ∈ R, c.Consistent

theorem okF_flags {p : CharProps} {R : Text} (h : CtxOk (p :: R)) : okF (flags (p :: R)) p = true := by
  induction R generalizing p with
  | nil => exact okF_init (h p (by simp))
  | cons q R ih =>
    exact okF_next _ (h q (by simp)) (h p (by simp)) (ih (fun c hc => h c (by simp [List.mem_cons.mp hc])))

/-- The decision before character `n` after a non-empty reversed context. -/
def brk : Text → CharProps → Bool
  | [], _ => true
  | p :: R, n => breakB (flags (p :: R)) p n

/-- One step of the machine in the state that stands for the context. -/
theorem Transition_correct {p n : CharProps} {R : Text} (h : CtxOk (p :: R)) (hn : n.Consistent) :
    ∃ s, Transition (stateOf (flags (p :: R))) (pack p) (pack n) = .ok (brk (p :: R) n, s) ∧
      (brk (p :: R) n = false → s = stateOf (flags (n :: p :: R))) := by
  have hf := okF_flags h
  have hp := h p (by simp)
  refine ⟨_, by rw [Transition, nextState_eq _ hn, split_correct _ hp hn hf]; rfl, fun hb => ?_⟩
  exact next_correct _ hp hn hf hb

theorem flags_restart {n : CharProps} {R : Text} (h : CtxOk R) (hn : n.Consistent) (hb : brk R n = true) :
    flags (n :: R) = flags [n] := by
  match R, h, hb with
  | [], _, _ => rfl
  | p :: R, h, hb => exact begin_correct _ (h p (by simp)) hn (okF_flags h) hb

end Textseg
