import Verif.Operation.Model
import Verif.Actions.Model
import Verif.Base.Fl
import Verif.Time.Model

/-!
# Supervision of operations

Model of the checks of the devices and parameters of an operation (PAC/common/operation_mngr.cpp, `action::check_devices`,
`step::check_devices`, `operation_state::check_devices`, `check_steps_params`), of the part of `tech_object::evaluate` that
pauses an operation because of them (PAC/common/tech_def.cpp lines 328-379), of the check before an operation is switched on
(tech_def.cpp lines 207-252 and 1397-1420), of the automatic switching on (operation_mngr.cpp lines 294-348), and of the filling of actions with
devices.  The texts of the messages are in `Ptusa.Actions` (C42, C44); here a message is the list of the devices it names.
-/
namespace Ptusa.Guard

open Operation (St SCfg Env Op Ev OpState)
open Actions (TimeErr checkMaxStepTime)

/-! ## Devices of an action -/

/-- An action: `devices` by group and subgroup (operation_mngr.h lines 38-140); for `open_seat_action` the groups of the upper
and lower seats (lines 228-300), `devices` stays empty. -/
inductive Act where
  | plain (groups : List (List (List Nat)))
  | seats (upper lower : List (List Nat))
  deriving DecidableEq, Repr

/-- `devices`: what `action::check_devices` looks at. -/
def Act.devices : Act → List (List (List Nat))
  | .plain g => g
  | .seats _ _ => []

/-- Enlarges a list to at least `n` elements: the loops `while ( n >= size ) emplace_back()`. -/
def grow {α : Type} (x : α) (n : Nat) (l : List α) : List α := l ++ List.replicate (n - l.length) x

/-- `action::add_dev` (operation_mngr.cpp lines 700-720); `sub` is `subgropups_cnt`. -/
def addDev (sub : Nat) (g : List (List (List Nat))) (dev group subgroup : Nat) : List (List (List Nat)) :=
  let g := grow (List.replicate sub []) (group + 1) g
  let s := grow [] (subgroup + 1) (g.getD group [])
  g.set group (s.set subgroup (s.getD subgroup [] ++ [dev]))

/-- An action just created (operation_mngr.cpp lines 556-565). -/
def emptyGroups (sub : Nat) : List (List (List Nat)) := [List.replicate sub []]

/-- `open_seat_action::add_dev` (operation_mngr.cpp lines 1456-1479) for one of the two lists. -/
def addSeat (l : List (List Nat)) (dev group : Nat) : List (List Nat) :=
  let l := if l.length ≤ group then l ++ [[]] else l
  if l.length ≤ group then l else l.set group (l.getD group [] ++ [dev])

/-! ## The checks -/

/-- A device as the checks see it: its state and whether its alarms are suppressed (`P_IS_SUPPRESS`). -/
structure Dev where
  state : Int
  suppressed : Bool

/-- `action::check_devices` (operation_mngr.cpp lines 643-698): the devices it names; none means the result 0. -/
def Act.faults (w : Nat → Dev) (a : Act) : List Nat :=
  a.devices.flatten.flatten.filter fun d => decide ((w d).state < 0) && !(w d).suppressed

/-- `step::check_devices` (operation_mngr.cpp lines 1059-1072): the devices of the first action with faults. -/
def stepFaults (w : Nat → Dev) : List Act → Option (List Nat)
  | [] => none
  | a :: l => if a.faults w = [] then stepFaults w l else some (a.faults w)

/-- What an operation is made of: its states (`Ptusa.Operation`), the actions of the step of the state `RUN` itself and of
its steps (from 0), the numbers of the parameters with the durations of the steps, whether there are maximal durations. -/
structure Cfg where
  sc : St → SCfg
  mode : List Act
  steps : Nat → List Act
  durations : List Int
  hasMax : Bool

/-- `operation_state::check_devices` of the state `RUN` (operation_mngr.cpp lines 2297-2321). -/
def faults (c : Cfg) (w : Nat → Dev) (r : OpState) : Option (List Nat) :=
  match stepFaults w c.mode with
  | some l => some l
  | none =>
    if (c.sc .run).steps = 0 then none
    else
      match r.main with
      | some m => if m < (c.sc .run).steps then stepFaults w (c.steps m) else none
      | none => none

/-- `operation_state::check_steps_params` (operation_mngr.cpp lines 2378-2402): all durations are zero. -/
def allZero (c : Cfg) (param : Int → Fl) : Bool :=
  !c.durations.isEmpty && c.durations.all fun n => decide (0 < n) && !(Fl.lt (.num 0) (param n))

/-- The messages of the supervision. -/
inductive Msg where
  | devices (l : List Nat)
  | params
  | time (e : TimeErr)
  deriving DecidableEq, Repr

/-- What the outside world answers in one pass: answers during the evaluation, commands given in it (by the jump of the
state and by user functions), devices, the setting `P_AUTO_PAUSE_OPER_ON_DEV_ERR`, the user function `is_check_mode`,
parameters, maximal and elapsed times of the steps, answers during the three possible pauses. -/
structure World where
  eval : Env
  inner : List Ev
  dev : Nat → Dev
  autoPause : Nat
  checkMode : Int
  param : Int → Fl
  maxOf : Nat → Nat
  elapsed : Nat → Nat
  p1 : Env × Env
  p2 : Env × Env
  p3 : Env × Env

/-- `tech_object::is_check_mode` (tech_def.cpp lines 1159-1170). -/
def checkOn (res : Int) : Bool := decide ((if 0 ≤ res then res else 1) = 1)

/-- The checks of one operation in `tech_object::evaluate` after its evaluation (tech_def.cpp lines 336-376); `none`:
undefined behaviour in `check_max_step_time`. -/
def supervise (c : Cfg) (w : World) (o : Op) : Option (Op × List Msg) :=
  let a := match faults c w.dev (o.st .run) with
    | some l =>
      if w.autoPause = 0 ∧ o.cur = .run ∧ checkOn w.checkMode then (o.pause c.sc w.p1.1 w.p1.2, [Msg.devices l]) else (o, [])
    | none => (o, [])
  if a.1.cur = .run then
    let b := if allZero c w.param then (a.1.pause c.sc w.p2.1 w.p2.2, a.2 ++ [Msg.params]) else a
    if c.hasMax then
      (checkMaxStepTime (c.sc .run).steps (b.1.st .run).main w.maxOf w.elapsed (b.1.st .run).extra).map fun
        | some e => (b.1.pause c.sc w.p3.1 w.p3.2, b.2 ++ [Msg.time e])
        | none => b
    else some b
  else some a

/-- One pass of `tech_object::evaluate` for one operation (tech_def.cpp lines 330-377). -/
def pass (c : Cfg) (w : World) (o : Op) : Option (Op × List Msg) :=
  ((o.evalCur c.sc w.eval).runEv c.sc w.inner).bind (supervise c w)

/-! ## Switching on -/

/-- The check of the devices when an operation is switched on (tech_def.cpp lines 206-219 in `set_mode`, lines 1404-1411 in
`check_operation_on`): refused because of devices. -/
def refused (c : Cfg) (w : Nat → Dev) (checkMode : Int) (o : Op) : Option (List Nat) :=
  match faults c w (o.st .run) with
  | some l => if checkOn checkMode then some l else none
  | none => none

/-- The fields of the automatic switching on (operation_mngr.h lines 918-921). -/
structure Auto where
  warn : BitVec 64 := 0
  wait : BitVec 64 := 0
  first : Bool := true
  fail : Bool := false
  deriving DecidableEq, Repr

/-- What is reported and done: switched on; `refused`: "нет автовключения по запросу"; `gaveUp`: "автовключение по запросу
отключено". -/
inductive Out where
  | tried (ok : Bool)
  | switchedOn
  | refused
  | gaveUp
  deriving DecidableEq, Repr

/-- One evaluation of an idle operation: is the signal for switching on there, would `set_mode` succeed, the clock, the
settings `P_AUTO_OPERATION_WARN_TIME` and `P_AUTO_OPERATION_WAIT_TIME`. -/
structure Idle where
  signal : Bool
  can : Bool
  now : BitVec 64
  warnTime : BitVec 32
  waitTime : BitVec 32

/-- `operation::evaluate` in the state `IDLE` with `process_auto_switch_on` (operation_mngr.cpp lines 242-262, 284-348).  An
operation that could be switched on according to `check_operation_on` is switched on by `set_mode`. -/
def Auto.step (a : Auto) (i : Idle) : Auto × List Out :=
  if i.signal = false then ({ a with first := true, fail := false }, [])
  else if a.fail then (a, [])
  else if a.first then
    if i.can then (a, [.tried true, .switchedOn])
    else ({ a with warn := i.now, wait := i.now, first := false }, [.tried false, .refused])
  else if i.can then (a, [.tried true, .switchedOn])
  else
    let x := if i.warnTime.zeroExtend 64 < Time.deltaMs i.now a.warn then ({ a with warn := i.now }, [Out.tried false, .refused])
      else (a, [.tried false])
    if i.waitTime.zeroExtend 64 < Time.deltaMs i.now x.1.wait then ({ x.1 with fail := true }, x.2 ++ [.gaveUp]) else x

/-- A history of evaluations in the state `IDLE`, up to the one that switches the operation on. -/
def Auto.run (a : Auto) : List Idle → Auto × List (List Out)
  | [] => (a, [])
  | i :: l =>
    let x := a.step i
    if Out.switchedOn ∈ x.2 then (x.1, [x.2])
    else ((x.1.run l).1, x.2 :: (x.1.run l).2)

end Ptusa.Guard
