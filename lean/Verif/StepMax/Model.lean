import Verif.Resume.Model
import Verif.Actions.Model

/-!
# Steps with a maximal time

The check of the maximal time of steps in a pass of `tech_object::evaluate` (PAC/common/tech_def.cpp 328-378), on the times of
`Ptusa.Resume.T`.  The other checks of the pass are those of `Ptusa.Guard` (C147); they are left out here.  The maximal times are
whole seconds (the conversion of the parameter from `float` is left out).
-/
namespace Ptusa.StepMax

open Operation (St SCfg Env Op Ev)
open Resume (T)
open Actions (TimeErr makeStr checkExtra)

/-- What one pass finds: the ms since the last call, the answers in the evaluation, the maximal time of each step in seconds
(0: none), whether debug output is on (`G_DEBUG`), whether the object switches an operation off that asks for it
(`tech_object::set_mode`, tech_def.cpp 188-197), the answers in a pause. -/
structure Pass where
  d : Nat
  e : Env := {}
  par : Nat → Nat
  dbg : Bool := false
  off : Bool := true
  p1 : Env := {}
  p2 : Env := {}

/-- `step::get_latest_eval_time` (operation_mngr.cpp 1009-1012). -/
def latest (x : T) (i : Nat) : Nat := x.now - x.start i

/-- `active_step_max_time` at the end of `operation_state::evaluate`: that of the step active at its beginning
(operation_mngr.cpp 2056-2062); with debug output `to_step` reads it again (2216-2233).  `a`, `b`: active step before and after. -/
def held (p : Pass) (a b : Option Nat) : Nat :=
  match a with
  | none => 0
  | some m => if p.dbg then p.par (b.getD m) else p.par m

/-- `operation_state::check_max_step_time` (operation_mngr.cpp 2324-2376) of RUN with `active_step_max_time = mx`; `none` is undefined
behaviour. -/
def check (c : SCfg) (p : Pass) (mx : Nat) (x : T) : Option (Option TimeErr) :=
  match (x.op.st .run).main with
  | some a =>
    if a < c.steps ∧ mx ≠ 0 ∧ 1000 * mx ≤ latest x a then (makeStr c.steps a mx).map some
    else checkExtra c.steps p.par (latest x) (x.op.st .run).extra
  | none => checkExtra c.steps p.par (latest x) (x.op.st .run).extra

/-- `operation::evaluate` of a running operation, with the reaction of the object to its request to be switched off
(operation_mngr.cpp 2074-2087). -/
def evaluated (c : St → SCfg) (p : Pass) (x : T) : Option T :=
  (Resume.step c x (p.d, .evaluate p.e)).map fun y =>
    if ((x.op.st x.op.cur).evaluate (c x.op.cur) p.e).2 ∧ p.off then Resume.finalize y else y

/-- One pass (tech_def.cpp 332-376): the operation after it and the messages. -/
def pass (c : St → SCfg) (p : Pass) (x : T) : Option (T × List TimeErr) :=
  (evaluated c p x).bind fun y =>
    if y.op.cur = .run then
      (check (c .run) p (held p (x.op.st .run).main (y.op.st .run).main) y).map fun
        | some r => (Resume.pause c p.p1 p.p2 y, [r])
        | none => (y, [])
    else some (y, [])

end Ptusa.StepMax
