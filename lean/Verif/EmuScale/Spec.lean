import Verif.EmuScale.Model

/-!
# Simulated scales, as they should be

Histories are given with their last event first.
-/
namespace Ptusa.EmuScale

/-- Is the manual mode on. -/
def inManual : List Ev → Bool
  | [] => false
  | .manual m :: _ => m
  | _ :: h => inManual h

/-- The weight that was set last: by the operator, or by the program outside manual mode. -/
def weightOf : List Ev → Rat
  | [] => 0
  | .operVal v :: _ => v
  | .val v :: h => if inManual h then weightOf h else v
  | _ :: h => weightOf h

/-- The same, but switching off outside manual mode is a weight of 0. -/
def weightOff : List Ev → Rat
  | [] => 0
  | .operVal v :: _ => v
  | .val v :: h => if inManual h then weightOff h else v
  | .off :: h => if inManual h then weightOff h else 0
  | _ :: h => weightOff h

/-- What precedes the last cycle. -/
def beforeCycle : List Ev → List Ev
  | [] => []
  | .cycle :: h => h
  | _ :: h => beforeCycle h

/-- The correction: set by the operator, or the weight at the last taring (`tare`, the state 1), negative. -/
def zeroOf : List Ev → Rat
  | [] => 0
  | .zero c :: _ => c
  | .tare :: h => -weightOf h
  | .operSet n :: h => if n = 1 then -weightOf h else zeroOf h
  | .set n :: h => if n = 1 ∧ inManual h = false then -weightOf h else zeroOf h
  | _ :: h => zeroOf h

/-- The correction set by the operator. -/
def setZero : List Ev → Rat
  | [] => 0
  | .zero c :: _ => c
  | _ :: h => setZero h

/-- No weight below 0 is set. -/
def NonNeg : Ev → Prop
  | .val v | .operVal v => 0 ≤ v
  | _ => True

end Ptusa.EmuScale
