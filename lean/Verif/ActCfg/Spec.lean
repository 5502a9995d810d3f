import Verif.ActCfg.Model

/-! # What the configuration of an action is for -/
namespace Ptusa.ActCfg.Spec

open ActCfg

/-- The calls after the last one that takes all devices away. -/
def sinceClear (h : List Call) : List Call := (h.reverse.takeWhile (fun c => c ≠ Call.clear)).reverse

/-- The devices the calls put into subgroup `s` of group `g`, in their order. -/
def devicesOf (g s : Nat) (h : List Call) : List Nat :=
  h.filterMap (fun c => match c with | .add d g' s' => if g' = g ∧ s' = s then some d else none | _ => none)

/-- The last parameter given for a position. -/
def lastPar (p : Nat) (h : List Call) : Option Int :=
  h.reverse.findSome? (fun c => match c with | .par p' i => if p' = p then some i else none | _ => none)

/-- The last target given for a group, under one of the two names of the property. -/
def lastTarget (g : Nat) (h : List Call) : Option Int :=
  h.reverse.findSome? (fun c => match c with
    | .int n g' v => if (n = "next_step_n" ∨ n = "next_state_n") ∧ g' = g then some v else none
    | _ => none)

/-- The last value given to the flag that the step is switched off. -/
def lastFlag (h : List Call) : Option Bool :=
  h.reverse.findSome? (fun c => match c with | .bool n v => if n = "should_turn_off" then some v else none | _ => none)

/-- The names of numbers and flags an action knows. -/
def KnownInt (k : Kind) (n : String) : Prop := k = .jump ∧ (n = "next_step_n" ∨ n = "next_state_n")
def KnownBool (k : Kind) (n : String) : Prop := k = .enable ∧ n = "should_turn_off"

/-- The seats put into a group, in their order. -/
def seatsOf (g : Nat) (low : Bool) (h : List SeatCall) : List Nat :=
  h.filterMap (fun c => match c with | .add d g' l => if g' = g ∧ l = low then some d else none | _ => none)

/-- Nothing is put into a group before something was put into each group before it, and devices are never taken away. -/
inductive Ordered : List SeatCall → Prop
  | nil : Ordered []
  | add {h d g low} : Ordered h → (∀ g' < g, ∃ d', SeatCall.add d' g' low ∈ h) → Ordered (h ++ [.add d g low])

end Ptusa.ActCfg.Spec
