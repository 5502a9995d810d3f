import Verif.EmuTemp.Model

/-!
# Simulated temperature sensors, as they should be

Histories are given with their last event first.
-/
namespace Ptusa.EmuTemp

/-- Is the manual mode on. -/
def inManual : List Ev → Bool
  | [] => false
  | .manual m :: _ => m
  | _ :: h => inManual h

/-- The temperature simulated last: by the operator, or by the program outside manual mode; switching off makes it 0. -/
def tempOf : List Ev → Rat
  | [] => 0
  | .operVal v :: _ => v
  | .val v :: h => if inManual h then tempOf h else v
  | .off :: h => if inManual h then tempOf h else 0
  | _ :: h => tempOf h

/-- The temperature to be shown on a fault, as it was set last. -/
def faultTemp : List Ev → Rat
  | [] => 0
  | .errT v :: _ => v
  | _ :: h => faultTemp h

/-- The state commanded last; 1 at the start. -/
def stateOf : List Ev → Int
  | [] => 1
  | .operSet n :: _ => n
  | .on :: h => if inManual h then stateOf h else 1
  | .off :: h => if inManual h then stateOf h else 0
  | .set n :: h => if inManual h then stateOf h else n
  | _ :: h => stateOf h

/-- A fault (a broken wire) is simulated by the temperature -1000, which modules report for it. -/
def Fault (h : List Ev) : Prop := tempOf h = -1000

end Ptusa.EmuTemp
