import Verif.Operation.Model

/-!
# The times of an operation and of its steps over pauses

`Ptusa.Operation.Op` (PAC/common/operation_mngr.cpp) with the clock: `start_time` and `dx_time` of the steps of the
state RUN, `dx_step_time` and `start_time` of this state and `run_time` of the operation.  Times are
unbounded numbers of milliseconds; the truncation to 32 bits is the subject of C45.  All calls made within one
command see the same time.
-/
namespace Ptusa.Resume

open Operation (St SCfg Env Call OpState Op Ev)

/-- An operation with its times: the clock, `step::start_time`, `step::dx_time` (operation_mngr.h 528-533) of the
steps of RUN, `operation_state::dx_step_time` and `start_time` (650-655) of RUN, `operation::run_time`. -/
structure T where
  op : Op
  now : Nat := 0
  start : Nat → Nat := fun _ => 0
  dx : Nat → Nat := fun _ => 0
  dxStep : Nat := 0
  runStart : Nat := 0
  runTime : Nat := 0

/-- What one call of a step does with the times: `step::init` (operation_mngr.cpp 977), `step::finalize` (1000),
`operation_state::init` (1989), `operation_state::finalize` (2124). -/
def stamp1 (x : T) : Call → T
  | .init (some i) => { x with start := fun j => if j = i then x.now else x.start j }
  | .fin (some i) => { x with dx := fun j => if j = i then 0 else x.dx j }
  | .init none => { x with runStart := x.now }
  | .fin none => { x with runStart := x.now }
  | .eval _ => x

/-- The calls of steps of RUN between two moments. -/
def newCalls (o o' : Op) : List Call := (o'.st .run).log.drop (o.st .run).log.length

/-- The operation becomes `o'`; the calls made on the way set the times. -/
def lift (x : T) (o' : Op) : T := { (newCalls x.op o').foldl stamp1 x with op := o' }

/-- `step::get_eval_time` of step `i` of RUN, operation_mngr.cpp 1004-1007. -/
def evalTime (x : T) (i : Nat) : Nat := x.now - x.start i + x.dx i

/-- `operation_state::finalize` of RUN keeps the time of the active step, operation_mngr.cpp 2126-2131. -/
def keep (x : T) : T :=
  match (x.op.st .run).main with
  | some m => { x with dxStep := evalTime x m }
  | none => x

/-- `operation_state::add_dx_step_time` of RUN, operation_mngr.cpp 2421-2427. -/
def addDx (x : T) : T :=
  match (x.op.st .run).main with
  | some m => { x with dx := fun j => if j = m then x.dxStep else x.dx j }
  | none => x

/-- `operation::to_run_state`, operation_mngr.cpp 183-205, from the operation `o` (the state left is finalised). -/
def toRun (c : St → SCfg) (e e2 : Env) (k : Int) (o : Op) (x : T) : T :=
  let o1 := o.upd .run (o.st .run).load
  let o2 := o1.enter c e .run (if 0 < k then k else if 0 < o.runStep then o.runStep else 1)
  let x1 := lift x o2
  let x2 := if 0 < k then (if k = o.runStep then addDx x1 else x1)
    else if 0 < o.runStep then addDx x1 else x1
  lift x2 (o2.evalCur c e2)

/-- `operation::start( int )`, operation_mngr.cpp 131-181. -/
def start (c : St → SCfg) (e e2 : Env) (k : Int) (x : T) : T :=
  match x.op.cur with
  | .idle => { lift x (x.op.start c e e2 k) with runTime := 0 }
  | .starting => { lift x (x.op.start c e e2 k) with runTime := 0 }
  | .pause =>
    if (c .unpausing).empty then toRun c e e2 k (x.op.fin .pause) x else lift x (x.op.start c e e2 k)
  | .unpausing => toRun c e e2 k x.op x
  | _ => lift x (x.op.start c e e2 k)

/-- `operation::pause`, operation_mngr.cpp 45-79. -/
def pause (c : St → SCfg) (e e2 : Env) (x : T) : T :=
  if x.op.cur = .run then
    lift { keep x with runTime := x.runTime + (x.now - x.runStart) } (x.op.pause c e e2)
  else lift x (x.op.pause c e e2)

/-- `operation::stop` and `operation::switch_off`, operation_mngr.cpp 81-124: RUN is finalised. -/
def leave (o' : Op) (x : T) : T := if x.op.cur = .run then lift (keep x) o' else lift x o'

/-- `operation::finalize`, operation_mngr.cpp 398-411, with `reset_eval_time` (operation_mngr.h 584-587). -/
def finalize (x : T) : T :=
  if x.op.cur = .idle then x else { leave x.op.finalize x with dxStep := 0 }

/-- One call, `d` ms after the last one; `none` is undefined behaviour. -/
def step (c : St → SCfg) (x0 : T) (v : Nat × Ev) : Option T :=
  let x : T := { x0 with now := x0.now + v.1 }
  match v.2 with
  | .start e e2 k => some (start c e e2 k x)
  | .startAgain e e2 => some (start c e e2 x.op.runStep x)
  | .pause e e2 => some (pause c e e2 x)
  | .stop e e2 => some (leave (x.op.stop c e e2) x)
  | .switchOff e e2 => some (leave (x.op.switchOff c e e2) x)
  | .finalize => some (finalize x)
  | ev => (x.op.step c ev).map (lift x)

/-- A history. -/
def runFrom (c : St → SCfg) : T → List (Nat × Ev) → Option T
  | x, [] => some x
  | x, v :: h => (step c x v).bind fun y => runFrom c y h

/-- A history from the creation of the operation on. -/
def run (c : St → SCfg) (h : List (Nat × Ev)) : Option T := runFrom c { op := Op.fresh c } h

/-- `operation::active_step_evaluation_time`, operation_mngr.cpp 453-461 and 2434-2442, while the operation
runs. -/
def stepTime (x : T) : Nat :=
  match (x.op.st .run).main with
  | some m => evalTime x m
  | none => 0

/-- `operation::evaluation_time`, operation_mngr.cpp 227-240. -/
def opTime (x : T) : Nat := if x.op.cur = .run then x.runTime + (x.now - x.runStart) else x.runTime

end Ptusa.Resume
