import Verif.EmuFlow.Model

/-!
# Simulated flow, as it should be

Histories are given with their last event first.
-/
namespace Ptusa.EmuFlow

/-- The flow simulated last. -/
def flowOf : List Ev → Rat
  | [] => 0
  | .flow v :: _ => v
  | _ :: h => flowOf h

/-- The temperature simulated last. -/
def tempOf : List Ev → Rat
  | [] => 0
  | .temp v :: _ => v
  | _ :: h => tempOf h

/-- The correction set last. -/
def zeroOf : List Ev → Rat
  | [] => 0
  | .zero c :: _ => c
  | _ :: h => zeroOf h

/-- Flows and temperatures that the sensor can report. -/
def Fits : Ev → Prop
  | .flow v => -32768 / 100 ≤ v ∧ v < 32768 / 100
  | .temp v => -8192 / 10 ≤ v ∧ v < 8192 / 10
  | _ => True

end Ptusa.EmuFlow
