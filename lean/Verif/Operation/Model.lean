/-!
# Operations, operation states and steps

Model of `PAC/common/operation_mngr.{h,cpp}`: classes `step`, `operation_state`, `operation`.

What the actions of a step do with devices is abstracted to a log of calls `init`, `evaluate`,
`finalize` of the steps.  Everything the code asks the outside world (clock, parameters, device
states, feedback checks) is a parameter `Env`, chosen anew for every call.  Debug printing is left
out.  `operation_state::n > 0` always (the stub operation is left out).
-/
namespace Ptusa.Operation

/-- `operation::state_idx`, operation_mngr.h 757-771.  The unnamed slots 4-9 are never entered. -/
inductive St
  | idle | run | pause | stop | starting | pausing | unpausing | stopping | completing
  deriving DecidableEq, Repr

/-- Numeric values of `state_idx`, operation_mngr.h 757-771. -/
def St.code : St → Nat
  | .idle => 0 | .run => 1 | .pause => 2 | .stop => 3
  | .starting => 10 | .pausing => 11 | .unpausing => 12 | .stopping => 13 | .completing => 14

/-- A call of a step (`some i`, counted from 0) or of the step of the whole state (`none`). -/
inductive Call
  | init (i : Option Nat) | eval (i : Option Nat) | fin (i : Option Nat)
  deriving DecidableEq, Repr

/-- Configuration of one `operation_state`: number of steps, `next_step_ns`, `is_empty()`
(operation_mngr.cpp 1953-1969, 2404-2412). -/
structure SCfg where
  steps : Nat
  next : Nat → Int := fun _ => -1
  empty : Bool := false

/-- What the outside world answers during one call.
`zeroDur i`: step `i` has a duration parameter (`step_duration_par_ns > 0`) with value 0;
`elapsed i`: it has one, not 0, and the step has been evaluated longer than that;
`jump i`: answer of `jump_if_action::is_jump` of step `i` with a non-negative step number;
`onSig i`/`offSig i`: the `enable_step_by_signal` action of step `i` asks to switch it on/off;
`checkOk i`: `step::check` returns 0. -/
structure Env where
  zeroDur : Nat → Bool := fun _ => false
  elapsed : Nat → Bool := fun _ => false
  jump : Nat → Option Nat := fun _ => none
  onSig : Nat → Bool := fun _ => false
  offSig : Nat → Bool := fun _ => false
  checkOk : Nat → Bool := fun _ => true

/-- `operation_state` (operation_mngr.h 557-690): the `active` flags of its own step (`mode`) and
of its steps, `active_step_n` (`none` for -1), `active_step_next_step_n`, `active_steps` and
`saved_active_steps` (numbers from 1). -/
structure OpState where
  mode : Bool := false
  main : Option Nat := none
  nextN : Int := -1
  act : List Bool
  extra : List Nat := []
  saved : List Nat := []
  log : List Call := []
  deriving DecidableEq, Repr

namespace OpState

/-- `step::init`, operation_mngr.cpp 975-984. -/
def initStep (r : OpState) (i : Nat) : OpState :=
  { r with act := r.act.set i true, log := r.log ++ [.init (some i)] }

/-- `step::evaluate`, operation_mngr.cpp 986-992. -/
def evalStep (r : OpState) (i : Nat) : OpState :=
  { r with log := r.log ++ [.eval (some i)] }

/-- `step::finalize`, operation_mngr.cpp 994-1002. -/
def finStep (r : OpState) (i : Nat) : OpState :=
  { r with act := r.act.set i false, log := r.log ++ [.fin (some i)] }

/-- The part of `to_step` (2198-2201) and `finalize` (2133-2144) that finalises the active step. -/
def finMain (r : OpState) : OpState :=
  match r.main with
  | some m => r.finStep m
  | none => r

/-- `operation_state::to_step`, operation_mngr.cpp 2183-2238.  A negative number is a large
`u_int`, hence out of range. -/
def toStep (c : SCfg) (e : Env) (k : Int) (r : OpState) : OpState :=
  if k ≤ 0 ∨ (c.steps : Int) < k then r
  else
    let i := k.toNat - 1
    let r2 : OpState := { r.finMain with main := some i, nextN := c.next i }
    if e.zeroDur i then r2 else (r2.initStep i).evalStep i

/-- `operation_state::init`, operation_mngr.cpp 1982-2014. -/
def init (c : SCfg) (e : Env) (start : Int) (r : OpState) : OpState :=
  let r1 : OpState := { r with mode := true, log := r.log ++ [.init none], main := none }
  if c.steps = 0 then r1
  else
    let r2 := r1.toStep c e start
    r2.extra.foldl (fun r k => r.initStep (k - 1)) r2

/-- `operation_state::finalize`, operation_mngr.cpp 2121-2160. -/
def finalize (r : OpState) : OpState :=
  let r1 : OpState := { r with mode := false, log := r.log ++ [.fin none] }
  let r2 : OpState := { r1.finMain with main := none }
  { r2.extra.foldl (fun r k => r.finStep (k - 1)) r2 with extra := [] }

/-- `operation_state::off_extra_step`, operation_mngr.cpp 2532-2562, for a number found in the
list or not; `std::find` gives the first occurrence.  A negative number is a large `size_t`. -/
def offExtra (c : SCfg) (k : Int) (r : OpState) : OpState :=
  if k < 0 ∨ (c.steps : Int) < k then r
  else if k.toNat ∈ r.extra then
    { r.finStep (k.toNat - 1) with extra := r.extra.erase k.toNat }
  else r

/-- `operation_state::on_extra_step`, operation_mngr.cpp 2479-2530, for a number from 1.  The
result is the return code. -/
def onExtraPos (c : SCfg) (e : Env) (k : Nat) (r : OpState) : OpState × Nat :=
  if c.steps < k then (r, 1)
  else if r.main = some (k - 1) then (r, 0)
  else if k ∈ r.extra then (r, 0)
  else
    let r1 : OpState := { r with extra := r.extra ++ [k] }
    if e.checkOk (k - 1) then ((r1.initStep (k - 1)).evalStep (k - 1), 0) else (r1, 1)

/-- `operation_state::on_extra_step`, operation_mngr.cpp 2479-2530, for any `int`; `none` is
undefined behaviour (number 0 while a step is active: `steps[ -1 ]` at 2500). -/
def onExtra (c : SCfg) (e : Env) (k : Int) (r : OpState) : Option (OpState × Nat) :=
  if k < 0 then some (r, 1)
  else if k = 0 then (if r.main = none then some (r, 0) else none)
  else some (r.onExtraPos c e k.toNat)

/-- `operation_state::switch_active_extra_step`, operation_mngr.cpp 2569-2611; `none` is
undefined behaviour (`steps[ -1 ]` at 2590). -/
def switchExtra (c : SCfg) (off on : Int) (r : OpState) : Option (OpState × Nat) :=
  if on < 0 ∨ (c.steps : Int) < on then some (r, 1)
  else if (on = 0 ∧ r.main = none) ∨ (0 < on ∧ r.main = some (on.toNat - 1)) then some (r, 0)
  else if 0 ≤ off ∧ off.toNat ∈ r.extra then
    if on = 0 then none
    else
      let r1 := r.finStep (off.toNat - 1)
      let r2 := (r1.initStep (on.toNat - 1)).evalStep (on.toNat - 1)
      some ({ r2 with extra := r2.extra.replace off.toNat on.toNat }, 0)
  else some (r, 0)

/-- One pass of the loop over the active extra steps, operation_mngr.cpp 2025-2040. -/
def extraBody (c : SCfg) (e : Env) (k : Nat) (r : OpState) : OpState :=
  if k - 1 < c.steps then
    let r1 := r.evalStep (k - 1)
    if e.offSig (k - 1) then r1.offExtra c k else r1
  else r

/-- The loop over the active extra steps, operation_mngr.cpp 2023-2041.  The index grows by one in
every pass although the pass may have removed an element.  The list never grows in it, so its
initial length bounds the number of passes (`fuel`). -/
def extraLoop (c : SCfg) (e : Env) : (fuel idx : Nat) → OpState → OpState
  | 0, _, r => r
  | fuel + 1, idx, r =>
    match r.extra[idx]? with
    | none => r
    | some k => extraLoop c e fuel (idx + 1) (r.extraBody c e k)

/-- The loop that switches extra steps on by signal, operation_mngr.cpp 2042-2054. -/
def enableLoop (c : SCfg) (e : Env) (r : OpState) : OpState :=
  (List.range c.steps).foldl (fun r i =>
    if i + 1 ∈ r.extra then r
    else if e.onSig i then (r.onExtraPos c e (i + 1)).1 else r) r

/-- `operation_state::evaluate` from the check of the duration on, operation_mngr.cpp 2056-2118.
The result says whether the owner is asked to switch the operation off (2084). -/
def evalMain (c : SCfg) (e : Env) (r : OpState) : OpState × Bool :=
  match r.main with
  | none => (r, false)
  | some m =>
    if e.zeroDur m || e.elapsed m then
      if r.nextN = -1 then (r, true) else (r.toStep c e r.nextN, false)
    else
      let r1 := match e.jump m with
        | some k => r.toStep c e k
        | none => r
      match r1.main with
      | some m' => (r1.evalStep m', false)
      | none => (r1, false)

/-- `operation_state::evaluate`, operation_mngr.cpp 2018-2119. -/
def evaluate (c : SCfg) (e : Env) (r : OpState) : OpState × Bool :=
  let r1 : OpState := { r with log := r.log ++ [.eval none] }
  let r2 := r1.extraLoop c e r1.extra.length 0
  (r2.enableLoop c e).evalMain c e

/-- `operation_state::to_next_step`, operation_mngr.cpp 2240-2256. -/
def toNext (c : SCfg) (e : Env) (r : OpState) : OpState :=
  match r.main with
  | none => r
  | some m => if c.next m = -1 then r.toStep c e (m + 2) else r.toStep c e (c.next m)

/-- `operation_state::turn_off_active_step`, operation_mngr.cpp 2258-2270. -/
def turnOff (r : OpState) : OpState := { r.finMain with main := none }

/-- `operation_state::save`, operation_mngr.cpp 2469-2472. -/
def save (r : OpState) : OpState := { r with saved := r.extra }

/-- `operation_state::load`, operation_mngr.cpp 2474-2477. -/
def load (r : OpState) : OpState := { r with extra := r.saved }

/-- `operation_state::active_step`, operation_mngr.cpp 2454-2457: number from 1, 0 for none. -/
def activeStep (r : OpState) : Nat :=
  match r.main with
  | some m => m + 1
  | none => 0

/-- `operation_state::is_active_extra_step`, operation_mngr.cpp 2613-2619. -/
def isExtra (r : OpState) (k : Int) : Bool := decide (0 ≤ k ∧ k.toNat ∈ r.extra)

end OpState

/-- `operation` (operation_mngr.h 697-920): current state, its states, `run_step`. -/
structure Op where
  cur : St := .idle
  st : St → OpState
  runStep : Int := -1

namespace Op

/-- Replaces one state. -/
def upd (o : Op) (s : St) (r : OpState) : Op :=
  { o with st := fun t => if t = s then r else o.st t }

/-- `states[ s ]->finalize()`. -/
def fin (o : Op) (s : St) : Op := o.upd s (o.st s).finalize

/-- `current_state = s; states[ s ]->init( k )`. -/
def enter (c : St → SCfg) (e : Env) (o : Op) (s : St) (k : Int) : Op :=
  { o.upd s ((o.st s).init (c s) e k) with cur := s }

/-- `states[ current_state ]->evaluate()`.  The request to switch the operation off is kept apart:
the caller (`tech_object`) turns it into a command or not. -/
def evalCur (c : St → SCfg) (e : Env) (o : Op) : Op :=
  o.upd o.cur ((o.st o.cur).evaluate (c o.cur) e).1

/-- `operation::pause`, operation_mngr.cpp 45-79.  (`e`, `e2` are the answers of the outside world
during `init` and `evaluate`.) -/
def pause (c : St → SCfg) (e e2 : Env) (o : Op) : Op :=
  match o.cur with
  | .run =>
    let o1 := { o.upd .run (o.st .run).save with runStep := (o.st .run).activeStep }
    let o2 := o1.fin .run
    (o2.enter c e (if (c .pausing).empty then .pause else .pausing) 1).evalCur c e2
  | .pausing => (o.fin .pausing).enter c e .pause 1
  | _ => o

/-- `operation::stop`, operation_mngr.cpp 81-111. -/
def stop (c : St → SCfg) (e e2 : Env) (o : Op) : Op :=
  match o.cur with
  | .pausing | .pause | .unpausing | .starting | .run =>
    ((o.fin o.cur).enter c e (if (c .stopping).empty then .stop else .stopping) 1).evalCur c e2
  | .stopping => ((o.fin .stopping).enter c e .stop 1).evalCur c e2
  | _ => o

/-- `operation::switch_off`, operation_mngr.cpp 113-124. -/
def switchOff (c : St → SCfg) (e e2 : Env) (o : Op) : Op :=
  if o.cur = .idle then o
  else ((o.fin o.cur).enter c e .idle 1).evalCur c e2

/-- `operation::to_run_state`, operation_mngr.cpp 183-205. -/
def toRun (c : St → SCfg) (e e2 : Env) (k : Int) (o : Op) : Op :=
  let o1 := o.upd .run (o.st .run).load
  (o1.enter c e .run (if 0 < k then k else if 0 < o.runStep then o.runStep else 1)).evalCur c e2

/-- `operation::start( int )`, operation_mngr.cpp 131-181. -/
def start (c : St → SCfg) (e e2 : Env) (k : Int) (o : Op) : Op :=
  match o.cur with
  | .idle => (o.fin .idle).enter c e (if (c .starting).empty then .run else .starting) 1
  | .pause =>
    if (c .unpausing).empty then (o.fin .pause).toRun c e e2 k
    else ((o.fin .pause).enter c e .unpausing 1).evalCur c e2
  | .starting => (o.fin .starting).enter c e .run 1
  | .unpausing => o.toRun c e e2 k
  | _ => o

/-- `operation::finalize`, operation_mngr.cpp 398-411. -/
def finalize (o : Op) : Op :=
  if o.cur = .idle then o else { o.fin o.cur with cur := .idle }

/-- `operation::active_step`, operation_mngr.cpp 412-421. -/
def activeStep (o : Op) : Nat := if o.cur = .idle then 0 else (o.st o.cur).activeStep

/-- A just created operation, operation_mngr.cpp 18-29: every state has its steps, none active. -/
def fresh (c : St → SCfg) : Op where
  st := fun s => { act := List.replicate (c s).steps false }

end Op

/-- The calls of the public interface of an operation. -/
inductive Ev
  | start (e e2 : Env) (k : Int)        -- `start( k )`
  | startAgain (e e2 : Env)             -- `start()` = `start( run_step )`, 126-129
  | pause (e e2 : Env)
  | stop (e e2 : Env)
  | switchOff (e e2 : Env)
  | finalize
  | evaluate (e : Env)
  | toStep (e : Env) (k : Int)          -- 473-479
  | toNext (e : Env)                    -- 481-487
  | turnOff                             -- 489-495
  | onExtra (e : Env) (k : Int)         -- 511-519
  | offExtra (k : Int)                  -- 521-529
  | switchExtra (off on : Int)          -- 546-554

/-- One call; `none` is undefined behaviour. -/
def Op.step (c : St → SCfg) (o : Op) : Ev → Option Op
  | .start e e2 k => some (o.start c e e2 k)
  | .startAgain e e2 => some (o.start c e e2 o.runStep)
  | .pause e e2 => some (o.pause c e e2)
  | .stop e e2 => some (o.stop c e e2)
  | .switchOff e e2 => some (o.switchOff c e e2)
  | .finalize => some o.finalize
  | .evaluate e => some (o.evalCur c e)
  | .toStep e k => some (o.upd o.cur ((o.st o.cur).toStep (c o.cur) e k))
  | .toNext e => some (o.upd o.cur ((o.st o.cur).toNext (c o.cur) e))
  | .turnOff => some (o.upd o.cur (o.st o.cur).turnOff)
  | .onExtra e k => ((o.st o.cur).onExtra (c o.cur) e k).map fun x => o.upd o.cur x.1
  | .offExtra k => some (o.upd o.cur ((o.st o.cur).offExtra (c o.cur) k))
  | .switchExtra off on =>
    ((o.st o.cur).switchExtra (c o.cur) off on).map fun x => o.upd o.cur x.1

/-- A history of calls; it stops at undefined behaviour. -/
def Op.runEv (c : St → SCfg) (o : Op) : List Ev → Option Op
  | [] => some o
  | ev :: es => (o.step c ev).bind fun o' => o'.runEv c es

end Ptusa.Operation
