import Verif.AnaDev.Model

/-!
# Faults of sensors; data of the control valve
-/
namespace Ptusa.AnaDev
open Analog

/-- The module signals a broken wire or a value out of its range, or there is no channel at all. -/
def Faulty : Channel → Prop
  | .unbound => True
  | .module .pt450 raw => raw < -2000 ∨ 8500 < raw
  | .module .cur466 raw => raw = 3 ∨ 32761 ≤ raw
  | .module .strain491 raw => raw < -30000 ∨ 30000 < raw
  | .module .rtd4 raw => raw < -32000
  | .module .axlAI4 raw => raw < -32000
  | .module .axlSE raw => raw < -32000
  | .other _ => False

/-- The state that shows a fault: -100 without a channel, -2 below the range or with a broken wire, -3 above the range, -4 out of the range
of a module that does not tell which. -/
def faultState : Channel → Int
  | .unbound => -100
  | .module .pt450 raw => if raw < -2000 then -2 else -3
  | .module .cur466 raw => if raw = 3 then -2 else -3
  | .module .strain491 _ => -4
  | _ => -2

/-- Raw units per mA of the modules for 4 to 20 mA. -/
def perMa : InModule → Option Rat
  | .cur466 => some (4095 / 2)
  | .axlAI4 => some 1875
  | .axlSE => some 1000
  | _ => none

/-- Linear scaling of 4 to 20 mA to a range; without a range the current itself. -/
def scaled (ma min max : Rat) : Rat := if min = 0 ∧ max = 0 then ma else min + (ma - 4) / 16 * (max - min)

/-- The valve a call sets. -/
def Ev.sets : Ev → Option Nat
  | .set i _ => some i
  | .on i => some i
  | .off i => some i
  | _ => none

/-- The valve a call sets and the set point: on is 100 per cent, off 0 (as floats). -/
def Ev.setpoint : Ev → Option (Nat × BitVec 32)
  | .set i f => some (i, f)
  | .on i => some (i, 0x42C80000#32)
  | .off i => some (i, 0)
  | _ => none

/-- The valve a call lets blink. -/
def Ev.blinks : Ev → Option Nat
  | .blink i _ => some i
  | _ => none

/-- The output data of different valves do not overlap (five bytes each). -/
def Apart (c : Conf) : Prop := ∀ i j p q, i ≠ j → c.outAt i = some p → c.outAt j = some q → p + 5 ≤ q ∨ q + 5 ≤ p

/-- A float at a place of an image, the highest byte first. -/
def bigEndian (m : Nat → Byte) (p : Nat) : BitVec 32 := m p ++ m (p + 1) ++ m (p + 2) ++ m (p + 3)

end Ptusa.AnaDev
