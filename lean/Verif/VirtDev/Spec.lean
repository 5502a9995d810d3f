import Verif.VirtDev.Model

/-!
# A virtual device, as it should be

The same as a simulated one (`EmuDev/Spec.lean`): a state and a value.  The reverse of a motor is the state 2.
-/
namespace Ptusa.VirtDev
open Ptusa.Valve (Tm)

/-- The commands in a history. -/
def commands (k : Kind) : List (Tm × Ev) → List (Tm × EmuDev.Ev)
  | [] => []
  | (t, .dev e) :: h => (t, e) :: commands k h
  | (t, .reverse) :: h => if k = .motor then (t, .set 2) :: commands k h else commands k h
  | (_, .rt _ _) :: h => commands k h

/-- Is the logic inverted after a history, given with its last event first. -/
def inverted : List (Tm × Ev) → Bool
  | [] => false
  | (_, .rt 1 v) :: _ => decide (v ≠ 0)
  | _ :: h => inverted h

end Ptusa.VirtDev
