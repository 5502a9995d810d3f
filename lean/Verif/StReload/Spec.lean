import Verif.StReload.Model
import Verif.CipStats.Spec

/-!
# What a line should show after the statistics were read again
-/
namespace Ptusa.StReload

open Ptusa.CipStats
open Ptusa.Registry (Name)

/-- The program prepares a solution or cleans the station itself (`SPROG_ACID_PREPARATION`, `SPROG_CAUSTIC_PREPARATION`,
`SPROG_SELF_CLEAN`, cip_tech_def.h 147-150). -/
def Own (prog : Nat) : Prop := prog = 256 ∨ prog = 512 ∨ prog = 2048

/-- The object a line has: the car, or the object of the recipe. -/
def Line.object (l : Line) : Name := if l.car then l.number else l.recipe

/-- The line washes its object. -/
def Line.Washes (l : Line) : Prop := l.running = true ∧ ¬Own l.prog

/-- What is shown for a line. -/
def shown (s : Sys) (i : Nat) : Option Stat :=
  match s.at' i with
  | some n => look s.base n
  | none => (s.empty i).view

end Ptusa.StReload
