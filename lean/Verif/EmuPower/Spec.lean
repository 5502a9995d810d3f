import Verif.EmuPower.Model

/-!
# Simulated power supply, as it should be

Histories are given with their last event first.
-/
namespace Ptusa.EmuPower

/-- Is the manual mode on. -/
def inManual : List Ev → Bool
  | [] => false
  | .manual m :: _ => m
  | _ :: h => inManual h

/-- Is the channel of number `c` on: the last command for it, or for the whole unit outside manual mode, was not 0. -/
def chanOn (c : Nat) : List Ev → Bool
  | [] => false
  | .on :: h => if inManual h then chanOn c h else true
  | .off :: h => if inManual h then chanOn c h else false
  | .st v :: h => if inManual h then chanOn c h else decide (v ≠ 0)
  | .ch idx v :: h => if idx = c then decide (v ≠ 0) else chanOn c h
  | _ :: h => chanOn c h

/-- The nominal current of the channel of number `c`: the last one that was set. -/
def current (c : Nat) : List Ev → Rat
  | [] => 0
  | .nominal idx v :: h => if idx = c then v else current c h
  | _ :: h => current c h

/-- Commands within their ranges: 0 or 1 to switch, 0 to 7 (the whole codes) as current. -/
def Fits : Ev → Prop
  | .st v | .ch _ v => v = 0 ∨ v = 1
  | .nominal _ v => ∃ n : Nat, n < 8 ∧ v = n
  | _ => True

end Ptusa.EmuPower
