import Verif.EmuCam.Model

/-!
# Simulated cameras, as they should be

Histories are given with their last event first.
-/
namespace Ptusa.EmuCam

/-- Is the manual mode on. -/
def inManual : List Ev → Bool
  | [] => false
  | .manual m :: _ => m
  | _ :: h => inManual h

/-- The state: the last command of the operator, or of the program outside manual mode. -/
def stateOf : List Ev → Int
  | [] => 0
  | .operSet n :: _ => n
  | .on :: h => if inManual h then stateOf h else 1
  | .off :: h => if inManual h then stateOf h else 0
  | .set n :: h => if inManual h then stateOf h else n
  | _ :: h => stateOf h

/-- The result of number `i` that was simulated last. -/
def resultOf (i : Nat) : List Ev → Int
  | [] => 0
  | .result j n :: h => if j = i then n else resultOf i h
  | _ :: h => resultOf i h

/-- Is the camera ready: what was simulated last, before that as at the start. -/
def readyOf (start : Bool) : List Ev → Bool
  | [] => start
  | .ready n :: _ => decide (0 < n)
  | _ :: h => readyOf start h

/-- Only the first result is simulated. -/
def First : Ev → Prop
  | .result j _ => j = 1
  | _ => True

end Ptusa.EmuCam
