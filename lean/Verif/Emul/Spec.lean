import Verif.Emul.Model
import Verif.ValveOff.Spec

/-!
# A simulated valve, as it should be

It is a number, 1 opened, 0 closed, 2 and 3 for the seats, and what its two feedbacks show.  Commands set the number at once;
a valve the program opened closes with the delay of all valves (`ValveOff.S`).  The inputs do not matter, and there are no outputs.
-/
namespace Ptusa.Emul
open Ptusa.Valve (Tm)

/-- What is seen of a simulated valve. -/
structure Sim where
  number : Int := 0
  opened : Bool
  closed : Bool
  deriving DecidableEq

/-- Commands of a simulated valve. -/
def sim : ValveOff.Cls Sim where
  directOn _ s := { s with number := 1 }
  directOff _ s := { s with number := 0 }
  directSet _ n s := { s with number := n }
  seat s := decide (s.number = 2 ∨ s.number = 3)

/-- The commands that set the feedbacks: only these two. -/
def Sim.named (prop : String) (val : Fl) (s : Sim) : Sim :=
  if prop = "FB_ON_ST" then { s with opened := !val.eq (.num 0) }
  else if prop = "FB_OFF_ST" then { s with closed := !val.eq (.num 0) }
  else s

/-- What an action is for a simulated valve. -/
def Act.sim : Act → ValveOff.Ev Sim
  | .on i t => .on i t
  | .off i t => .off i t
  | .instantOff i t => .instantOff i t
  | .setState i t n => .setState i t n
  | .oper i t n => .oper i t n
  | .manual i m => .manual i m
  | .inputs i _ _ => .io i id
  | .name i p v => .io i (Sim.named p v)
  | .evaluate t d bd => .evaluate t d bd

/-- Valves that have feedbacks show both ends at the start. -/
def fresh : Valve.Kind → Sim
  | .do1 | .do2 => { opened := false, closed := false }
  | _ => { opened := true, closed := true }

/-- The valve `i` alone after a history. -/
def simulated (k : Valve.Kind) (i : Nat) (h : List Act) : ValveOff.S Sim :=
  ({ body := fresh k } : ValveOff.S Sim).run sim i (h.map Act.sim)

/-- The names of the history mean something: no name with an `F` in front but the two of the feedbacks. -/
def Known : Act → Prop
  | .name _ p _ => p.toList.head? = some 'F' → p = "FB_ON_ST" ∨ p = "FB_OFF_ST"
  | _ => True

/-- Not a new value of an input. -/
def Act.notInput : Act → Bool
  | .inputs _ _ _ => false
  | _ => true

/-- The two inputs that the valve `i` got last. -/
def lastInputs (i : Nat) (h : List Act) : Bool × Bool :=
  h.foldl (fun s a => match a with | .inputs j x y => if j = i then (x, y) else s | _ => s) (false, false)

/-- Feedbacks (opened, closed) by the two inputs: none for two classes, one input for two others; the class with two outputs has
the closed end first. -/
def feedbacks (k : Valve.Kind) (s : Bool × Bool) : Bool × Bool :=
  match k with
  | .do1 | .do2 => (false, false)
  | .di1Off => (false, s.1)
  | .di1On => (s.1, false)
  | .do2di2 => (s.2, s.1)
  | _ => (s.1, s.2)

/-- The outputs of a valve: discrete channels, those of a bottom mix-proof valve, the outlet of a terminal. -/
def outputs (b : Body) : List Bool := [b.dv.a, b.dv.b, b.dv.c, b.bt.main, b.bt.mini, b.bt.lower, b.out]

/-- Events that open or close valve `i` at once are left out; it may be asked to close again and again. -/
def Asked (i : Nat) : Act → Prop
  | .on j _ | .instantOff j _ | .setState j _ _ | .oper j _ _ => j ≠ i
  | _ => True

end Ptusa.Emul
