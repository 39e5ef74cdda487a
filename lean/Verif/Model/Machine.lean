import Verif.Model.CharProps
/-!
# Model of textseg/internal/machine/state.go
-/

namespace Textseg

/-- state.go:23 `type State int` -/
abbrev State := Int

-- state.go:25-54, the constants (`iota`)
def StateBase           : State := 0 -- state.go:28
def StateAwaitEmojiFlag : State := 1 -- state.go:34
def StateGB11BeforeZWJ  : State := 2 -- state.go:40
def StateGB11AfterZWJ   : State := 3 -- state.go:44
def StateGB9cConsonant  : State := 4 -- state.go:48
def StateGB9cLinker     : State := 5 -- state.go:53

/-- state.go:144-196 `State.nextState` -/
def nextState (s : State) (next : CharProperties) : Go State :=
  if gcbProperty next == GCBExtendedPictographic then .ok StateGB11BeforeZWJ
  else if inCBProperty next == InCBConsonant then .ok StateGB9cConsonant
  else
    let gcbProp := gcbProperty next
    let incbProp := inCBProperty next
    if s == StateBase then
      if gcbProp == GCBRegionalIndicator then .ok StateAwaitEmojiFlag
      else .ok StateBase
    else if s == StateAwaitEmojiFlag then .ok StateBase
    else if s == StateGB11BeforeZWJ then
      if gcbProp == GCBZWJ then .ok StateGB11AfterZWJ
      else if gcbProp == GCBExtend then .ok StateGB11BeforeZWJ
      else .ok StateBase
    else if s == StateGB11AfterZWJ then .ok StateBase
    else if s == StateGB9cConsonant then
      if incbProp == InCBLinker then .ok StateGB9cLinker
      else if incbProp == InCBExtend then .ok StateGB9cConsonant
      else .ok StateBase
    else if s == StateGB9cLinker then
      if incbProp == InCBLinker || incbProp == InCBExtend then .ok StateGB9cLinker
      else .ok StateBase
    else .error (.explicit "invalid state")

/-- state.go:60-62 `Begin` -/
def Begin (first : CharProperties) : Go State := nextState StateBase first

/-- state.go:198-201 `State.gb9cActive` -/
def gb9cActive (s : State) : Bool := s == StateGB9cLinker
/-- state.go:203-206 `State.gb11Active` -/
def gb11Active (s : State) : Bool := s == StateGB11AfterZWJ
/-- state.go:208-211 `State.gb13Active` -/
def gb13Active (s : State) : Bool := s == StateAwaitEmojiFlag

/-- state.go:80-141, the sequence of `if` statements of `State.Transition`: the first component of its result. -/
def transitionSplit (s : State) (prev next : CharProperties) : Bool :=
  let prevC := gcbProperty prev
  let nextC := gcbProperty next
  -- GB3
  if prevC == GCBCR && nextC == GCBLF then false
  -- GB4 and GB5
  else if isAnyControl prevC || isAnyControl nextC then true
  -- GB6
  else if prevC == GCBL && (nextC == GCBL || nextC == GCBV || nextC == GCBLV || nextC == GCBLVT) then false
  -- GB7
  else if (prevC == GCBLV || prevC == GCBV) && (nextC == GCBV || nextC == GCBT) then false
  -- GB8
  else if (prevC == GCBLVT || prevC == GCBT) && nextC == GCBT then false
  -- GB9
  else if nextC == GCBExtend || nextC == GCBZWJ then false
  -- GB9a
  else if nextC == GCBSpacingMark then false
  -- GB9b (labelled GB9a in the Go source)
  else if prevC == GCBPrepend then false
  -- GB9c (the Go source nests the second condition in the first)
  else if gb9cActive s &&
      ((inCBProperty prev == InCBLinker || inCBProperty prev == InCBExtend) && inCBProperty next == InCBConsonant) then false
  -- GB11
  else if gb11Active s && (prevC == GCBZWJ && nextC == GCBExtendedPictographic) then false
  -- GB12 and GB13
  else if gb13Active s && (prevC == GCBRegionalIndicator && nextC == GCBRegionalIndicator) then false
  -- GB999
  else true

/-- state.go:72-142 `State.Transition` -/
def Transition (s : State) (prev next : CharProperties) : Go (Bool × State) := do
  let ns ← nextState s next
  .ok (transitionSplit s prev next, ns)

end Textseg
