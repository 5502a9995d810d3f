import Verif.Operation.Model
import Verif.Resume.Spec

/-!
# The time since a step was begun
-/
namespace Ptusa.StepMax

open Operation (St SCfg Env Op Ev)

/-- The operation runs in step `m + 1`. -/
def At (m : Nat) (o : Op) : Prop := o.cur = .run ∧ (o.st .run).main = some m

/-- In this call step `m + 1` is not one to be skipped (a duration of 0 is set for it). -/
def Kept (m : Nat) : Ev → Prop
  | .start e e2 _ | .startAgain e e2 => e.zeroDur m = false ∧ e2.zeroDur m = false
  | .evaluate e | .toStep e _ | .toNext e => e.zeroDur m = false
  | _ => True

/-- The call begins step `m + 1`, or goes on with it after a pause. -/
def Begins (m : Nat) (o : Op) (ev : Ev) (o' : Op) : Prop := ¬ At m o ∧ At m o' ∧ Kept m ev

/-- The call neither asks step `m + 1` to end nor the operation to leave the state. -/
def Leaves (m : Nat) : Ev → Prop
  | .evaluate e => e.zeroDur m = false ∧ e.elapsed m = false ∧ e.jump m = none
  | .onExtra .. | .offExtra _ | .switchExtra .. | .start .. | .startAgain .. => True
  | _ => False

/-- The time that passes in a list of calls. -/
def total : List (Nat × Ev) → Nat
  | [] => 0
  | v :: g => v.1 + total g

end Ptusa.StepMax
