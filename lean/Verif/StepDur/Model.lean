import Verif.Resume.Model

/-!
# Steps with a duration

The check of the duration in `operation_state::evaluate`, PAC/common/operation_mngr.cpp 2064-2071: what
`Ptusa.Operation.Env` leaves open is answered by the clock of `Ptusa.Resume.T`.
-/
namespace Ptusa.StepDur

open Operation (Env)

/-- The answers of the clock for the active step `m` of RUN with the duration `lim` (in ms; `none`: the step has no parameter
for it), operation_mngr.cpp 2065-2071: `active_step_time == 0` and `get_eval_time() > active_step_time`. -/
def clock (lim : Option Nat) (x : Resume.T) (m : Nat) : Bool × Bool :=
  match lim with
  | some t => (decide (t = 0), decide (t < Resume.evalTime x m))
  | none => (false, false)

/-- A pass at this moment finds these answers. -/
def Timed (lim : Option Nat) (x : Resume.T) (m : Nat) (e : Env) : Prop := (e.zeroDur m, e.elapsed m) = clock lim x m

instance (lim : Option Nat) (x : Resume.T) (m : Nat) (e : Env) : Decidable (Timed lim x m e) := by
  unfold Timed; infer_instance

end Ptusa.StepDur
