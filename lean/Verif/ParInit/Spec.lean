import Verif.ParInit.Model

/-! # Which values parameters have to have -/
namespace Ptusa.ParInit.Spec

open ParInit

/-- The last value a list of assignments gives to a parameter. -/
def last (w : Which) (i : Nat) (l : List Asg) : Option Rat :=
  l.reverse.findSome? (fun a => if a.w = w ∧ a.i = i then some a.v else none)

/-- The value the functions of the project give to a saved parameter, 0 if none. -/
def dflt (p : Project) (w : Which) (i : Nat) : Rat :=
  (last w i (p.uint ++ p.float ++ p.rtUint ++ p.rtFloat ++ p.project ++ p.runtime)).getD 0

/-- The value of a saved parameter, told from the last event backwards: what was set last; the value of the project at a reset and at a
start where the number of parameters changed; the value found in the beginning. -/
def savedVal (p : Project) (w : Which) (i : Nat) (v0 : Rat) : List Ev → Rat
  | [] => v0
  | .set a :: t => if a.w = w ∧ a.i = i then a.v else savedVal p w i v0 t
  | .reset :: _ => dflt p w i
  | .start true :: _ => dflt p w i
  | .start false :: t => savedVal p w i v0 t

/-- The value of a run-time parameter, told from the last event backwards: what was set last; at a reset, and at
a start where the number of parameters changed, the value of `init_runtime_params`; at another start the value the object gets when it
is set up. -/
def runVal (p : Project) (w : Which) (i : Nat) (v0 : Rat) : List Ev → Rat
  | [] => v0
  | .set a :: t => if a.w = w ∧ a.i = i then a.v else runVal p w i v0 t
  | .reset :: _ => (last w i p.runtime).getD 0
  | .start true :: _ => (last w i p.runtime).getD 0
  | .start false :: _ => (last w i p.own).getD 0

/-- Assignments to run-time parameters only. -/
def Runtime (l : List Asg) : Prop := ∀ a ∈ l, a.w.saved = false

/-- What a washing line sets up: the least flow and three delays (`P_R_NO_FLOW` to `P_TM_NO_CONC`), then for the regulator of heating and for
that of flow: set point, amplification, integral and derivative time, period, greatest and least input, time of acceleration, manual mode, manual
output, output. -/
def lineSetup : List Rat :=
  [2, 20, 20, 20] ++ [95, 2, 30, 1 / 5, 500, 130, 0, 30, 0, 30, 0] ++ [15, 1 / 2, 10, 1 / 10, 1000, 40, 0, 2, 0, 15, 0]

end Ptusa.ParInit.Spec
