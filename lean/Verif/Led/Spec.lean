import Verif.Led.Model

/-! # What the status lamp is to show -/
namespace Ptusa.Led.Spec

open Led

/-- The clock does not go back, starting at `t`. -/
def Forward : Nat → List (Nat × Bool) → Prop
  | _, [] => True
  | t, c :: cs => t ≤ c.1 ∧ Forward c.1 cs

/-- The time of the last of these calls, `t` if there is none. -/
def endTime : Nat → List (Nat × Bool) → Nat
  | t, [] => t
  | _, c :: cs => endTime c.1 cs

/-- A list of commands, the last one first, after which the lamp is lit or not, the last change (or the first call) being at
`t`: the lamp is lit and put out in turns, each more than half a second after the change before. -/
inductive Blinks (t0 : Nat) : List (Nat × Cmd) → Bool → Nat → Prop
  | none : Blinks t0 [] false t0
  | lit {l t} (now c) : Blinks t0 l false t → t + 500 < now → Blinks t0 ((now, some c) :: l) true now
  | out {l t} (now) : Blinks t0 l true t → t + 500 < now → Blinks t0 ((now, .none) :: l) false now

/-- The colour for a state of the controller. -/
def colour (errors : Bool) : Colour := if errors then .red else .green

/-- What a person sees after these commands (the last one first): nothing, or a colour. -/
def seen : List (Nat × Cmd) → Option Colour
  | [] => none
  | (_, c) :: _ => c

end Ptusa.Led.Spec
