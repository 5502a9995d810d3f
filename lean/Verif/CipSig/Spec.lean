import Verif.CipSig.Model

/-!
# What the signals mean
-/
namespace Ptusa.CipSig

/-- The output with a number: that of the line itself, then the common one with this number, then the device with this index; 0 is none. -/
def output (p : Proj) (s : Nat) : Option Nat :=
  if s = 0 then none else ([p.byLine s, p.byDo s, p.byIndex s].filterMap id).head?

/-- The wanted output after a cycle: that of a chosen recipe, none after a reset or the end of a washing. -/
def want (p : Proj) (w : Option Nat) (c : Cycle) : Option Nat :=
  if c.fin = .go then
    match c.choice with
    | some (_, s) => output p s
    | none => w
  else none

/-- The output that has to be on: that of the recipe chosen last, if no reset or end of a washing followed. -/
def wanted (p : Proj) (h : List Cycle) : Option Nat := h.foldl (want p) none

/-- What an operator has done so far: the recipe that is known, and whether a washing ended in the last cycle. -/
structure Known where
  recipe : Option (Nat × Nat) := none
  ended : Bool := false

/-- After a cycle.  A recipe is forgotten in the cycle after the reset. -/
def Known.next (k : Known) (c : Cycle) (gone : Bool) : Known :=
  { recipe := match c.choice with
      | some x => some x
      | none => if gone then none else k.recipe
    ended := c.fin = .washed }

/-- The operator does not choose the recipe of the washing that ended in the cycle before, and a recipe that is chosen again has the same output.
`gone`: the cycle before ended with a reset. -/
def Calm (k : Known) (gone : Bool) : List Cycle → Prop
  | [] => True
  | c :: cs =>
    (∀ n s, c.choice = some (n, s) → ∀ s', k.recipe = some (n, s') → k.ended = false ∧ s' = s) ∧
    Calm (k.next c gone) (c.fin ≠ .go) cs

/-- The last level that decides: below the limit, or not below the limit plus the difference.  Only readings of a tank that is used and has the
switch for the low level active count. -/
def lastDecisive (low delta : Rat) (rs : List Reading) : Option Rat :=
  (rs.filter fun r => r.lwl ∧ ¬ r.unused ∧ (r.level < low ∨ low + delta ≤ r.level)).getLast?.map Reading.level

end Ptusa.CipSig
