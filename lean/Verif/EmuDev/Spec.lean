import Verif.EmuDev.Model

/-!
# A simulated device, as it should be

A state and a value.  Commands of the operator are obeyed always, those of the program outside manual mode.  Switched off, a device
has the state 0 and the value 0.
-/
namespace Ptusa.EmuDev
open Ptusa.Valve (Tm)

/-- Is the manual mode on after a history, given with its last event first. -/
def inManual : List (Tm × Ev) → Bool
  | [] => false
  | (_, .manual m) :: _ => m
  | _ :: h => inManual h

/-- The state after a history, given with its last event first; `s` at the start. -/
def stateOf (s : Int) : List (Tm × Ev) → Int
  | [] => s
  | (_, .operSet n) :: _ => n
  | (_, .on) :: h => if inManual h then stateOf s h else 1
  | (_, .off) :: h => if inManual h then stateOf s h else 0
  | (_, .set n) :: h => if inManual h then stateOf s h else n
  | _ :: h => stateOf s h

/-- The value after a history, given with its last event first. -/
def valueOf : List (Tm × Ev) → Rat
  | [] => 0
  | (_, .operVal v) :: _ => v
  | (_, .off) :: h => if inManual h then valueOf h else 0
  | (_, .val v) :: h => if inManual h then valueOf h else v
  | _ :: h => valueOf h

/-- Are random values on. -/
def noisyOf : List (Tm × Ev) → Bool
  | [] => false
  | (_, .noise b) :: _ => b
  | _ :: h => noisyOf h

/-- The state at the start. -/
def first : Kind → Int
  | .sensor => 1
  | _ => 0

/-- Classes with random values. -/
def Kind.analog : Kind → Bool
  | .ao1 | .sensor | .breaker => true
  | _ => false

/-- With modules: is a discrete output on after a history, given with its last event first. -/
def outOf : List (Tm × Ev) → Bool
  | [] => false
  | (_, .on) :: h => if inManual h then outOf h else true
  | (_, .off) :: h => if inManual h then outOf h else false
  | _ :: h => outOf h

/-- With modules: an analog output after a history, given with its last event first. -/
def anaOf : List (Tm × Ev) → Rat
  | [] => 0
  | (_, .operVal v) :: _ => v
  | (_, .val v) :: h => if inManual h then anaOf h else v
  | _ :: h => anaOf h

/-- What the commands do to the output of a motor with modules. -/
def motorStep (s : Motor.Sub) (mt : Motor.Mt) (man : Bool) (e : Tm × Ev) : Motor.Mt :=
  match e.2 with
  | .on => if man then mt else Motor.directOn s e.1 mt
  | .off => if man then mt else Motor.directOff s e.1 mt
  | .set n => if man then mt else Motor.directSet s e.1 n mt
  | .val v => if man then mt else Motor.setValue s v mt
  | .operSet n => Motor.directSet s e.1 n mt
  | .operVal v => Motor.setValue s v mt
  | .input b => { mt with i := b }
  | _ => mt

/-- The outputs. -/
def outputs (d : Dev) : Bool × Rat × (Bool × Bool × Rat) × (Nat × Bool × Rat) × Bool :=
  (d.o, d.ao, (d.mt.o, d.mt.r, d.mt.speed), (d.cmd, d.rev, d.frq), d.sw)

end Ptusa.EmuDev
