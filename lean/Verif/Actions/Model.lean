import Verif.Base.Fl
import Verif.Time.Model

/-!
# Actions of a step

Model of the actions in `PAC/common/operation_mngr.cpp` (on, reverse, off, delayed on/off, DI→DO,
inverted DI→DO, AI→AO, washing by request, seat washing, conditional jump, enabling a step by
signals) and of `action::check_devices`, `operation_state::check_max_step_time`.

Devices are numbered; several actions may share a device.  Simplifications.
* `World` keeps what has been commanded: the state (`on()` is state 1, `off()` is state 0), the value
  and the seat washing flag of a valve.  Manual mode of devices is not considered here
  (see `Device`), nor is the dynamics of the real device.
* What is read from devices (`is_active`, `get_value`, `is_opened`, `is_closed`, and whether a device
  commanded to a state is in error) is the environment `Env`; inputs do not change during one
  evaluation (they are refreshed between the cycles).
-/
namespace Ptusa.Actions

/-- Kinds of devices the actions distinguish. -/
inductive Ty
  | valve | motor | vc | ao | regulator | other
  deriving DecidableEq, Repr

/-- What is read from devices. -/
structure Env where
  ty : Nat → Ty := fun _ => .other
  active : Nat → Bool := fun _ => false
  read : Nat → Fl := fun _ => 0
  opened : Nat → Bool := fun _ => false
  closed : Nat → Bool := fun _ => false
  /-- `get_state() == -1` of device `d` commanded to state `s`. -/
  err : Nat → Int → Bool := fun _ _ => false

/-- What has been commanded. -/
structure World where
  st : Nat → Int := fun _ => 0
  val : Nat → Fl := fun _ => 0
  seat : Nat → Bool := fun _ => false

namespace World

/-- `dev->set_state( s )`, `on()` and `off()`. -/
def setState (d : Nat) (s : Int) (w : World) : World :=
  { w with st := fun x => if x = d then s else w.st x }

/-- `dev->set_value( v )`. -/
def setValue (d : Nat) (v : Fl) (w : World) : World :=
  { w with val := fun x => if x = d then v else w.val x }

/-- `valve::set_seat_wash_state( b )`, valve.cpp 306-314. -/
def setSeat (d : Nat) (b : Bool) (w : World) : World :=
  { w with seat := fun x => if x = d then b else w.seat x }

/-- The loops `for ( … ) devs[ i ]->set_state( s )`. -/
def setAll (ds : List Nat) (s : Int) (w : World) : World := ds.foldl (fun w d => w.setState d s) w

/-- The loops `for ( … ) devs[ i ]->set_value( v )`. -/
def setVals (ds : List Nat) (v : Fl) (w : World) : World := ds.foldl (fun w d => w.setValue d v) w

end World

/-! ### On, reverse, off, delays -/

/-- `on_action::evaluate`, operation_mngr.cpp 741-753 (devices of the main subgroup). -/
def evalOn (devs : List Nat) (w : World) : World := w.setAll devs 1

/-- `on_reverse_action::evaluate`, operation_mngr.cpp 794-806. -/
def evalReverse (devs : List Nat) (w : World) : World := w.setAll devs 2

/-- `off_action::evaluate`, operation_mngr.cpp 809-831. -/
def evalOff (e : Env) (devs : List Nat) (w : World) : World :=
  devs.foldl (fun w d => if e.ty d = .valve ∧ w.seat d = true then w else w.setState d 0) w

/-- The delay of group `idx`: `none` without a parameter, operation_mngr.cpp 774-784, 854-862. -/
def delayOf (parIdx : List Int) (par : Int → Fl) (idx : Nat) : Option Fl :=
  if parIdx.getD idx 0 > 0 then some (par (parIdx.getD idx 0)) else none

/-- `delay_on_action::evaluate`, operation_mngr.cpp 765-791, `elapsed` milliseconds after `init`. -/
def evalDelayOn (parIdx : List Int) (par : Int → Fl) (elapsed : Nat) (groups : List (List Nat))
    (w : World) : World :=
  groups.zipIdx.foldl (fun w g =>
    match delayOf parIdx par g.2 with
    | some dt => if Fl.le (Fl.num elapsed) dt = true then w else w.setAll g.1 1
    | none => w.setAll g.1 1) w

/-- `delay_off_action::evaluate`, operation_mngr.cpp 845-872. -/
def evalDelayOff (parIdx : List Int) (par : Int → Fl) (elapsed : Nat) (groups : List (List Nat))
    (w : World) : World :=
  groups.zipIdx.foldl (fun w g =>
    let newState : Int := match delayOf parIdx par g.2 with
      | some dt => if Fl.le (Fl.num elapsed) dt = true then 1 else 0
      | none => 0
    w.setAll g.1 newState) w

/-! ### Inputs to outputs -/

/-- `DI_DO_action::evaluate`, operation_mngr.cpp 1119-1177: the first device of a group is the input. -/
def evalDIDO (e : Env) (groups : List (List Nat)) (w : World) : World :=
  groups.foldl (fun w g => match g with
    | [] => w
    | i :: outs => if e.active i = true then w.setAll outs 1 else w.setAll outs 0) w

/-- `inverted_DI_DO_action`, operation_mngr.cpp 1185-1196. -/
def evalInvDIDO (e : Env) (groups : List (List Nat)) (w : World) : World :=
  groups.foldl (fun w g => match g with
    | [] => w
    | i :: outs => w.setAll outs (if e.active i = true then 0 else 1)) w

/-- `AI_AO_action::evaluate`, operation_mngr.cpp 1239-1259. -/
def evalAIAO (e : Env) (groups : List (List Nat)) (w : World) : World :=
  groups.foldl (fun w g => match g with
    | [] => w
    | i :: outs => w.setVals outs (e.read i)) w

/-- `DI_DO_action::finalize`, `AI_AO_action::finalize`, operation_mngr.cpp 1139-1158, 1262-1281. -/
def finalIO (groups : List (List Nat)) (w : World) : World :=
  groups.foldl (fun w g => match g with
    | [] => w
    | _ :: outs => w.setAll outs 0) w

/-- `action::finalize`, operation_mngr.cpp 599-625 (without DEBUG_NO_IO_MODULES). -/
def finalAll (devices : List (List (List Nat))) (w : World) : World :=
  devices.foldl (fun w g => g.foldl (fun w s => w.setAll s 0) w) w

/-! ### Washing by request -/

/-- One group of `wash_action`. -/
structure WashGroup where
  di : List Nat := []
  dos : List Nat := []
  devs : List Nat := []
  rev : List Nat := []
  freq : List Nat := []
  deriving DecidableEq, Repr

/-- `new_val` of `wash_action::evaluate`; `none` is the value -1 (no task). -/
def washVal (e : Env) (parIdx : List Int) (par : Int → Fl) (idx : Nat) (g : WashGroup) : Option Fl :=
  let v : Fl := match g.freq with
    | f :: _ => e.read f
    | [] => if parIdx.getD idx 0 > 0 then par (parIdx.getD idx 0) else Fl.num (-1)
  if Fl.eq v (Fl.num (-1)) = true then none else some v

/-- `new_state` of `wash_action::evaluate`. -/
def washReq (e : Env) (g : WashGroup) : Int :=
  if g.di.isEmpty then 1 else if g.di.any e.active then 1 else 0

/-- Types a task is written to, operation_mngr.cpp 1655-1657. -/
def takesValue : Ty → Bool
  | .motor | .vc | .ao | .regulator => true
  | _ => false

/-- Commands to a device of `G_DEV`, operation_mngr.cpp 1649-1661. -/
def washDev (e : Env) (newState : Int) (newVal : Option Fl) (d : Nat) (w : World) : World :=
  let w1 := w.setState d newState
  match newVal with
  | some v => if takesValue (e.ty d) = true then w1.setValue d (if newState > 0 then v else 0) else w1
  | none => w1

/-- Commands to a device of `G_REV_DEV`, operation_mngr.cpp 1662-1671. -/
def washRev (e : Env) (newState : Int) (newVal : Option Fl) (d : Nat) (w : World) : World :=
  let w1 := w.setState d (if newState > 0 then 2 else 0)
  match newVal with
  | some v => if e.ty d = .motor then w1.setValue d (if newState > 0 then v else 0) else w1
  | none => w1

/-- One group in `wash_action::evaluate`, operation_mngr.cpp 1607-1704. -/
def evalWashGroup (e : Env) (parIdx : List Int) (par : Int → Fl) (idx : Nat) (g : WashGroup)
    (w : World) : World :=
  let s := washReq e g
  let v := washVal e parIdx par idx g
  let w1 := w.setAll g.dos 1
  let w2 := g.devs.foldl (fun w d => washDev e s v d w) w1
  let w3 := g.rev.foldl (fun w d => washRev e s v d w) w2
  if (g.devs ++ g.rev).any (fun d => e.err d (w3.st d)) then w3.setAll g.dos 0 else w3

/-- `wash_action::evaluate`, operation_mngr.cpp 1600-1705. -/
def evalWash (e : Env) (parIdx : List Int) (par : Int → Fl) (groups : List WashGroup) (w : World) :
    World :=
  groups.zipIdx.foldl (fun w g => evalWashGroup e parIdx par g.2 g.1 w) w

/-- `wash_action::finalize`, operation_mngr.cpp 1733-1757. -/
def finalWash (groups : List WashGroup) (w : World) : World :=
  groups.foldl (fun w g => ((w.setAll g.dos 0).setAll g.devs 0).setAll g.rev 0) w

/-! ### Conditional jump and enabling by signals -/

/-- One group of `jump_if_action`: devices that must be on and devices that must be off. -/
structure JumpGroup where
  on : List Nat := []
  off : List Nat := []
  deriving DecidableEq, Repr

/-- `jump_if_action::check`, operation_mngr.cpp 1786-1805. -/
def jumpCheck (e : Env) (ds : List Nat) (wantOn : Bool) : Bool :=
  ds.all fun d =>
    if e.ty d = .valve then (if wantOn then e.opened d else e.closed d)
    else (if wantOn then e.active d else !e.active d)

/-- The loop of `jump_if_action::is_jump`; `next` is the value kept from the groups before. -/
def jumpLoop (e : Env) (nextN : List Int) : List JumpGroup → Nat → Int → Bool × Int
  | [], _, next => (false, next)
  | g :: gs, idx, next =>
    let next' := if idx < nextN.length then nextN.getD idx (-1) else next
    if jumpCheck e g.on true && jumpCheck e g.off false then (true, next')
    else jumpLoop e nextN gs (idx + 1) next'

/-- `jump_if_action::is_jump`, operation_mngr.cpp 1765-1784: the result and `next`. -/
def isJump (e : Env) (nextN : List Int) (groups : List JumpGroup) : Bool × Int :=
  if nextN.isEmpty then (false, -1) else jumpLoop e nextN groups 0 (-1)

/-- `enable_step_by_signal::is_any_group_active`, operation_mngr.cpp 1868-1891: `others` are the groups
besides the main one. -/
def isAnyGroupActive (e : Env) (main : List (List Nat)) (others : List (List (List Nat))) : Bool :=
  if (main :: others).all (fun g => g.all List.isEmpty) then false
  else main.any fun g => g.all e.active

/-! ### Washing of seats -/

/-- `open_seat_action::PHASES`. -/
inductive Phase
  | waiting | upper | lower
  deriving DecidableEq, Repr

/-- Fields of `open_seat_action`; `unsigned long` has 64 bits, `u_int_4` has 32. -/
structure Seat where
  phase : Phase := .waiting
  next : Phase := .upper
  act : Nat := 0
  wait : BitVec 32 := 60000
  start : BitVec 32 := 0
  deriving DecidableEq, Repr

/-- Groups of seats. -/
structure SeatCfg where
  up : List (List Nat)
  lo : List (List Nat)

/-- `get_delta_millisec` of a 32-bit start time. -/
def since (now : BitVec 64) (start : BitVec 32) : BitVec 64 :=
  Time.deltaMs now (start.zeroExtend 64)

/-- The time between two washings, operation_mngr.cpp 1337-1341: computed in `size_t` (64 bits), kept
in 32 bits. -/
def waitTime (period flip : BitVec 32) (groups : Nat) : BitVec 32 :=
  ((period.zeroExtend 64 - flip.zeroExtend 64 * BitVec.ofNat 64 groups) /
    (BitVec.ofNat 64 (groups + 1))).truncate 32

/-- `open_seat_action::init`, operation_mngr.cpp 1309-1344; `period` is `P_MIX_FLIP_PERIOD * 1000` for
an operation, the time of the step for a step; `flipUp`, `flipLo` are the parameters
`P_MIX_FLIP_UPPER_TIME`, `P_MIX_FLIP_LOWER_TIME`. -/
def seatInit (c : SeatCfg) (now : BitVec 64) (period flipUp flipLo : BitVec 32) (s : Seat) : Seat :=
  if c.up.isEmpty ∧ c.lo.isEmpty then s
  else
    { phase := .waiting, next := .upper, act := 0, start := now.truncate 32,
      wait := waitTime period (if flipUp > flipLo then flipUp else flipLo)
        (c.up.length + c.lo.length) }

/-- `switch_off_group( group, true )`, operation_mngr.cpp 1552-1577. -/
def offGroupChecked (e : Env) (g : List Nat) (w : World) : World :=
  g.foldl (fun w d => if e.ty d = .valve ∧ w.seat d = true then w else w.setState d 0) w

/-- `switch_off_group( group )`, operation_mngr.cpp 1552-1577. -/
def offGroup (e : Env) (g : List Nat) (w : World) : World :=
  g.foldl (fun w d =>
    if e.ty d = .valve then (w.setState d 0).setSeat d false else w.setState d 0) w

/-- `switch_on_group( group, st )`, operation_mngr.cpp 1579-1597. -/
def onGroup (e : Env) (st : Int) (g : List Nat) (w : World) : World :=
  g.foldl (fun w d =>
    if e.ty d = .valve then (w.setState d st).setSeat d true else w.setState d 1) w

/-- `open_seat_action::finalize`, operation_mngr.cpp 1435-1454; `none`: index out of range. -/
def seatFinal (c : SeatCfg) (e : Env) (s : Seat) (w : World) : Option World :=
  if c.up.isEmpty ∧ c.lo.isEmpty then some w
  else match s.phase with
    | .waiting => some w
    | .upper => if c.up.isEmpty then some w else c.up[s.act]?.map fun g => offGroup e g w
    | .lower => if c.lo.isEmpty then some w else c.lo[s.act]?.map fun g => offGroup e g w

/-- One of the two branches for open seats, operation_mngr.cpp 1374-1402 and 1404-1431. -/
def seatOpen (c : SeatCfg) (e : Env) (now : BitVec 64) (flip : BitVec 32) (groups : List (List Nat))
    (st : Int) (other : Phase) (s : Seat) (w : World) : Option (Seat × World) :=
  if groups.isEmpty then some ({ s with phase := other, next := other }, w)
  else if since now s.start < flip.zeroExtend 64 then
    groups[s.act]?.map fun g => (s, onGroup e st g w)
  else (seatFinal c e s w).map fun w1 =>
    let last : Bool := decide (s.act + 1 ≥ groups.length)
    ({ s with phase := .waiting, start := now.truncate 32,
              act := if last then 0 else s.act + 1,
              next := if last then other else s.next }, w1)

/-- `open_seat_action::evaluate`, operation_mngr.cpp 1347-1433; `none`: index out of range. -/
def seatEval (c : SeatCfg) (e : Env) (now : BitVec 64) (flipUp flipLo : BitVec 32) (s : Seat)
    (w : World) : Option (Seat × World) :=
  if c.up.isEmpty ∧ c.lo.isEmpty then some (s, w)
  else match s.phase with
    | .waiting =>
      let w1 := c.lo.foldl (fun w g => offGroupChecked e g w) w
      let w2 := c.up.foldl (fun w g => offGroupChecked e g w) w1
      if since now s.start > s.wait.zeroExtend 64 then
        some ({ s with phase := s.next, start := now.truncate 32 }, w2)
      else some (s, w2)
    | .upper => seatOpen c e now flipUp c.up 2 .lower s w
    | .lower => seatOpen c e now flipLo c.lo 3 .upper s w

/-! ### A step -/

/-- The actions of a step by the way they are finalised, operation_mngr.cpp 915-946: on, reverse, off,
enabling and delayed actions use `action::finalize`; required and checked devices and jumps do nothing. -/
inductive Act
  | plain (devices : List (List (List Nat)))
  | io (groups : List (List Nat))
  | wash (groups : List WashGroup)
  | seat (c : SeatCfg) (s : Seat)
  | passive

/-- `action::finalize` of the actions. -/
def finalAct (e : Env) : Act → World → Option World
  | .plain devices, w => some (finalAll devices w)
  | .io groups, w => some (finalIO groups w)
  | .wash groups, w => some (finalWash groups w)
  | .seat c s, w => seatFinal c e s w
  | .passive, w => some w

/-- `step::finalize`, operation_mngr.cpp 994-1002. -/
def stepFinal (e : Env) : List Act → World → Option World
  | [], w => some w
  | a :: as, w => (finalAct e a w).bind (stepFinal e as)

/-- On, reverse and off actions of `step::evaluate` in this order, operation_mngr.cpp 915-935, 986-992. -/
def evalOnOff (e : Env) (on rev off : List Nat) (w : World) : World :=
  evalOff e off (evalReverse rev (evalOn on w))

/-! ### Description of devices in error -/

/-- Memory effect of writing the description: how far it has been written (`top` is one more than the
largest written offset), the offset `out`, `free_size`, `written_size`. -/
structure Buf where
  top : Nat := 0
  out : Nat := 0
  free : Int
  written : Nat := 0
  deriving DecidableEq, Repr

/-- Appending `'name', ` of `len` bytes with `fmt::format_to_n( out, free_size, … )`: the limit is a
`size_t`, so a negative `free_size` is no limit. -/
def Buf.append (len : Nat) (b : Buf) : Buf :=
  let n := if b.free < 0 then len else min len b.free.toNat
  { top := max b.top (b.out + n), out := b.out + n, free := b.free - len, written := b.written + len }

/-- The devices of one subgroup; `some len` is a device in error (not suppressed) with a description
of `len` bytes.  The loop is left when the buffer is full, operation_mngr.cpp 654-676. -/
def Buf.subgroup : List (Option Nat) → Buf → Buf
  | [], b => b
  | none :: ds, b => Buf.subgroup ds b
  | some len :: ds, b =>
    let b1 := b.append len
    if b1.free < 0 then b1 else Buf.subgroup ds b1

/-- The bytes written by `action::check_devices( err_description, size )`, operation_mngr.cpp 643-698: one more
than the largest offset; `none` if an offset below the buffer is written. -/
def checkDevicesExtent (size : Nat) (devices : List (List (List (Option Nat)))) : Option Nat :=
  let b := devices.foldl (fun b g => g.foldl (fun b s => Buf.subgroup s b) b)
    { free := (size : Int) - 1 }
  let top := max b.top (b.out + 1)
  if b.written > 2 then
    if b.free < 0 then (if b.out < 3 then none else some top)
    else (if b.out < 2 then none else some top)
  else some top

/-! ### Supervision of the step time -/

/-- What `operation_state::check_max_step_time` reports: the number of the step and the time. -/
structure TimeErr where
  step : Nat
  time : Nat
  deriving DecidableEq, Repr

/-- `make_str( step_n, step_max_time )`, operation_mngr.cpp 2329-2348: `steps[ step_n ]` out of range is
undefined (`none`); the text names the step `step_n + 1` and the time. -/
def makeStr (steps : Nat) (stepN time : Nat) : Option TimeErr :=
  if stepN < steps then some ⟨stepN + 1, time⟩ else none

/-- Extra steps of `check_max_step_time`, operation_mngr.cpp 2359-2373: numbers from 1 of the active
extra steps, `maxOf i` – the configured time of step `i` (from 0) in seconds (0: none), `elapsed i` in
milliseconds.  The arguments of `make_str` are in the order of the code. -/
def checkExtra (steps : Nat) (maxOf elapsed : Nat → Nat) : List Nat → Option (Option TimeErr)
  | [] => some none
  | a :: as =>
    if maxOf (a - 1) ≠ 0 ∧ elapsed (a - 1) ≥ 1000 * maxOf (a - 1) then
      (makeStr steps (maxOf (a - 1)) (a - 1)).map some
    else checkExtra steps maxOf elapsed as

/-- `operation_state::check_max_step_time`, operation_mngr.cpp 2324-2376: outer `none` – undefined
behaviour, inner `none` – no error.  `active` is the main step (from 0). -/
def checkMaxStepTime (steps : Nat) (active : Option Nat) (maxOf elapsed : Nat → Nat)
    (extra : List Nat) : Option (Option TimeErr) :=
  match active with
  | some a =>
    if a < steps ∧ maxOf a ≠ 0 ∧ elapsed a ≥ 1000 * maxOf a then (makeStr steps a (maxOf a)).map some
    else checkExtra steps maxOf elapsed extra
  | none => checkExtra steps maxOf elapsed extra

end Ptusa.Actions
