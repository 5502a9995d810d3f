import Verif.StepOut.Model

/-!
# The outputs of parallel steps

One state of an operation with its steps and parallel steps (`Ptusa.Operation.OpState`, PAC/common/operation_mngr.cpp 1982-2270, 2479-2619), and the commands its calls give to devices
(`Ptusa.StepOut.cmds`).
-/
namespace Ptusa.ParOut

open Operation (SCfg Env OpState)
open Device (Prog)
open StepOut (Devs cmds)

/-- What is called of a state of an operation. -/
inductive Ev where
  | main (v : StepOut.Ev)
  | onExtra (e : Env) (k : Int)
  | offExtra (k : Int)
  | switchExtra (off on : Int)

/-- One call; `none` is undefined behaviour (`Ptusa.Operation.OpState.onExtra`). -/
def step (c : SCfg) (r : OpState) : Ev → Option OpState
  | .main v => some (StepOut.step c r v)
  | .onExtra e k => (r.onExtra c e k).map Prod.fst
  | .offExtra k => some (r.offExtra c k)
  | .switchExtra off on => (r.switchExtra c off on).map Prod.fst

/-- A history. -/
def runFrom (c : SCfg) : OpState → List Ev → Option OpState
  | r, [] => some r
  | r, v :: h => (step c r v).bind fun r => runFrom c r h

/-- A history from the creation of the state on. -/
def run (c : SCfg) (h : List Ev) : Option OpState := runFrom c { act := List.replicate c.steps false } h

end Ptusa.ParOut
