import Verif.Operation.Model
import Verif.MainLoop.Model

/-!
# From the steps of an operation to the messages for the couplers

One state of an operation (`Ptusa.Operation.OpState`) whose steps have lists of devices to be switched on and off (PAC/common/operation_mngr.cpp 599-625, 741-753, 809-831, 915-946, 975-1002), as the
program of the main loop (`Ptusa.MainLoop`).  The devices are signals and motors; the other actions of the steps do not command them.
-/
namespace Ptusa.StepOut

open Operation (Call SCfg Env OpState)
open Device (Prog)

/-- The devices of the actions `on` and `off` of a step. -/
structure Devs where
  on : List Nat := []
  off : List Nat := []

/-- The commands of a call: `step::init` none; `step::evaluate` (986-992) with `on_action::evaluate` (741-753), then `off_action::evaluate` (809-831, for devices that are not valves);
`step::finalize` (994-1002) with `action::finalize` (599-625) of both.  `none` is the step of the whole state. -/
def cmds (dev : Option Nat → Devs) : Call → List (Nat × Prog)
  | .init _ => []
  | .eval i => (dev i).on.map (fun d => (d, Prog.on)) ++ (dev i).off.map fun d => (d, Prog.off)
  | .fin i => (dev i).on.map (fun d => (d, Prog.off)) ++ (dev i).off.map fun d => (d, Prog.off)

/-- What is called of a state of an operation, without parallel steps. -/
inductive Ev where
  | init (e : Env) (start : Int)
  | evaluate (e : Env)
  | toStep (e : Env) (k : Int)
  | toNext (e : Env)
  | turnOff
  | finalize

/-- One call. -/
def step (c : SCfg) (r : OpState) : Ev → OpState
  | .init e k => r.init c e k
  | .evaluate e => (r.evaluate c e).1
  | .toStep e k => r.toStep c e k
  | .toNext e => r.toNext c e
  | .turnOff => r.turnOff
  | .finalize => r.finalize

/-- A history from the creation of the state on. -/
def run (c : SCfg) (h : List Ev) : OpState := h.foldl (step c) { act := List.replicate c.steps false }

/-- All commands given in a history. -/
def given (c : SCfg) (dev : Option Nat → Devs) (h : List Ev) : List (Nat × Prog) := (run c h).log.flatMap (cmds dev)

end Ptusa.StepOut
