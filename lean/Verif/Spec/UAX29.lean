/-!
# Specification: extended grapheme cluster boundaries (UAX #29, Unicode 17, section 3.1.1)

Independent of the model of the Go code. A text is a list of characters, of which only three property values matter.
Every rule is a predicate on a position in the text, given as what comes `before` and what comes `after` it;
the look-behind of a rule is written as "the text before ends in ...".
-/

namespace Textseg.Spec

/-- Grapheme_Cluster_Break property values (UAX #29, table 2). -/
inductive GCB where
  | Other | CR | LF | Control | Extend | ZWJ | RegionalIndicator | Prepend | SpacingMark | L | V | T | LV | LVT
deriving DecidableEq, Repr

/-- Indic_Conjunct_Break property values (UAX #44). -/
inductive InCB where
  | None | Consonant | Extend | Linker
deriving DecidableEq, Repr

/-- The property values of one character. -/
structure CharProps where
  gcb : GCB
  extPict : Bool
  incb : InCB
deriving DecidableEq, Repr

/-- "Any other" character: no relevant property. -/
def CharProps.none : CharProps := ⟨.Other, false, .None⟩

abbrev Text := List CharProps

/-- CR, LF or Control. -/
def CharProps.isControl (c : CharProps) : Prop := c.gcb = .Control ∨ c.gcb = .CR ∨ c.gcb = .LF

/-- The text before the position ends in a character with property `P`. -/
def EndsIn (before : Text) (P : CharProps → Prop) : Prop := ∃ pre c, before = pre ++ [c] ∧ P c
/-- The text after the position starts with a character with property `P`. -/
def StartsWith (after : Text) (P : CharProps → Prop) : Prop := ∃ c post, after = c :: post ∧ P c

variable (before after : Text)

/-- GB1: sot ÷ Any -/
def GB1 : Prop := before = [] ∧ after ≠ []
/-- GB2: Any ÷ eot -/
def GB2 : Prop := before ≠ [] ∧ after = []
/-- GB3: CR × LF -/
def GB3 : Prop := EndsIn before (·.gcb = .CR) ∧ StartsWith after (·.gcb = .LF)
/-- GB4: (Control | CR | LF) ÷ -/
def GB4 : Prop := EndsIn before CharProps.isControl
/-- GB5: ÷ (Control | CR | LF) -/
def GB5 : Prop := StartsWith after CharProps.isControl
/-- GB6: L × (L | V | LV | LVT) -/
def GB6 : Prop := EndsIn before (·.gcb = .L) ∧
  StartsWith after (fun c => c.gcb = .L ∨ c.gcb = .V ∨ c.gcb = .LV ∨ c.gcb = .LVT)
/-- GB7: (LV | V) × (V | T) -/
def GB7 : Prop := EndsIn before (fun c => c.gcb = .LV ∨ c.gcb = .V) ∧
  StartsWith after (fun c => c.gcb = .V ∨ c.gcb = .T)
/-- GB8: (LVT | T) × T -/
def GB8 : Prop := EndsIn before (fun c => c.gcb = .LVT ∨ c.gcb = .T) ∧ StartsWith after (·.gcb = .T)
/-- GB9: × (Extend | ZWJ) -/
def GB9 : Prop := StartsWith after (fun c => c.gcb = .Extend ∨ c.gcb = .ZWJ)
/-- GB9a: × SpacingMark -/
def GB9a : Prop := StartsWith after (·.gcb = .SpacingMark)
/-- GB9b: Prepend × -/
def GB9b : Prop := EndsIn before (·.gcb = .Prepend)
/-- GB9c: InCB=Consonant [InCB=Extend InCB=Linker]* InCB=Linker [InCB=Extend InCB=Linker]* × InCB=Consonant -/
def GB9c : Prop :=
  (∃ pre c xs l ys, before = pre ++ [c] ++ xs ++ [l] ++ ys ∧
    c.incb = .Consonant ∧ (∀ x ∈ xs, x.incb = .Extend ∨ x.incb = .Linker) ∧
    l.incb = .Linker ∧ (∀ y ∈ ys, y.incb = .Extend ∨ y.incb = .Linker)) ∧
  StartsWith after (·.incb = .Consonant)
/-- GB11: ExtPict Extend* ZWJ × ExtPict -/
def GB11 : Prop :=
  (∃ pre p xs z, before = pre ++ [p] ++ xs ++ [z] ∧
    p.extPict = true ∧ (∀ x ∈ xs, x.gcb = .Extend) ∧ z.gcb = .ZWJ) ∧
  StartsWith after (·.extPict = true)
/-- GB12: sot (RI RI)* RI × RI -/
def GB12 : Prop :=
  (∃ n, before.length = 2 * n + 1) ∧ (∀ c ∈ before, c.gcb = .RegionalIndicator) ∧
  StartsWith after (·.gcb = .RegionalIndicator)
/-- GB13: [^RI] (RI RI)* RI × RI -/
def GB13 : Prop :=
  (∃ pre c rs, before = pre ++ [c] ++ rs ∧ c.gcb ≠ .RegionalIndicator ∧
    (∃ n, rs.length = 2 * n + 1) ∧ (∀ r ∈ rs, r.gcb = .RegionalIndicator)) ∧
  StartsWith after (·.gcb = .RegionalIndicator)

/-- The decision at a position: the first rule that applies decides (÷ of GB1, GB2; × of GB3; ÷ of GB4, GB5; × of
GB6 ... GB13; otherwise ÷ by GB999). -/
def Boundary : Prop :=
  GB1 before after ∨ GB2 before after ∨
  (¬ GB3 before after ∧
    (GB4 before ∨ GB5 after ∨
      ¬ (GB6 before after ∨ GB7 before after ∨ GB8 before after ∨ GB9 after ∨ GB9a after ∨ GB9b before ∨
         GB9c before after ∨ GB11 before after ∨ GB12 before after ∨ GB13 before after)))

end Textseg.Spec
