import Verif.CipEnd.Model

/-!
# What the ends of steps depend on, in terms of what has happened
-/
namespace Ptusa.CipEnd

/-- The clock does not go back. -/
def Mono {α : Type} (t : Nat) : List (Ev α) → Prop
  | [] => True
  | .cycle now _ :: l => t ≤ now ∧ Mono now l
  | .again a b :: l => t ≤ a ∧ a ≤ b ∧ Mono b l

/-- The last time of a history. -/
def last {α : Type} (t : Nat) : List (Ev α) → Nat
  | [] => t
  | .cycle now _ :: l => last now l
  | .again _ b :: l => last b l

/-- All inputs of a history. -/
def inputs {α : Type} : List (Ev α) → List (Nat × α)
  | [] => []
  | .cycle now i :: l => (now, i) :: inputs l
  | .again _ _ :: l => inputs l

/-- The inputs since the last resumption. -/
def recent {α : Type} : List (Ev α) → List (Nat × α)
  | [] => []
  | .cycle now i :: l => if l.any (fun e => match e with | .again _ _ => true | _ => false) then recent l else (now, i) :: recent l
  | .again _ _ :: l => recent l

/-- For how long the step was stopped. -/
def stopped {α : Type} : List (Ev α) → Nat
  | [] => 0
  | .cycle _ _ :: l => stopped l
  | .again a b :: l => b - a + stopped l

/-- When the step began or was resumed the last time. -/
def resumed {α : Type} (t : Nat) : List (Ev α) → Nat
  | [] => t
  | .cycle _ _ :: l => resumed t l
  | .again _ b :: l => resumed b l

/-- The steps with the additional rinse. -/
def extra : List Int := [8, 37, 57, 86]

/-- The time of the first input with a property. -/
def firstTime {α : Type} (p : α → Bool) (l : List (Nat × α)) : Option Nat := (l.find? fun x => p x.2).map (·.1)

/-- The volume has passed. -/
def passed (i : FromIn) : Bool := decide (i.vol ≤ i.q)

/-- The time since when there is no flow, if it has flowed before. -/
def dryFrom (l : List (Nat × EmptyIn)) : Option Nat :=
  if l.any (fun x => x.2.fl) then (l.reverse.takeWhile fun x => !x.2.fl).getLast?.map (·.1) else none

/-- When the level switch was covered the last time; `t` if never. -/
def coveredAt (t : Nat) (l : List (Nat × EmptyIn)) : Nat :=
  ((l.reverse.find? fun x => x.2.ls == some true).map (·.1)).getD t

/-- The litres which count: those since a level was reached (`p`), after the beginning or the last resumption before them. `on`: it was
reached before. -/
def counted (p : SmallIn → Bool) (on : Bool) : List (Ev SmallIn) → Rat
  | [] => 0
  | .cycle _ i :: l => (if on then i.litres else 0) + counted p (on || p i) l
  | .again _ _ :: l => counted p false l

/-- How long it took, up to `now`, since a level was reached, without stops; `since`: it was reached before, and the last time of the
history. -/
def lasted (p : SmallIn → Bool) (since : Option Nat) (now : Nat) : List (Ev SmallIn) → Nat
  | [] => match since with
    | some t => now - t
    | none => 0
  | .cycle t i :: l => lasted p (since.or (if p i then some t else none)) now l
  | .again a _ :: l => (match since with
    | some t => a - t
    | none => 0) + lasted p none now l

/-- How long the concentration was low, up to `now`, since it was not for the last time, without stops. -/
def lowFor (since : Option Nat) (acc : Nat) (now : Nat) : List (Ev Bool) → Nat
  | [] => acc + match since with
    | some t => now - t
    | none => 0
  | .cycle _ false :: l => lowFor none 0 now l
  | .cycle t true :: l => lowFor (since.or (some t)) acc now l
  | .again a _ :: l => lowFor none (acc + match since with
    | some t => a - t
    | none => 0) now l

end Ptusa.CipEnd
