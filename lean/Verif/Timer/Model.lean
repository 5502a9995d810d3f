import Verif.Time.Model

/-!
# Timers of the control program

Model of `timer` (PAC/common/device/device.h lines 1705-1777, device.cpp lines 3528-3609) and of the access by index
`timer_manager::operator[]` (device.cpp lines 3613-3654).  `u_long` has 64 bits, as on a PC and on PLCnext; `u_int` has 32.
The debug messages are not modelled.
-/
namespace Ptusa.Timer

/-- The millisecond clock. -/
abbrev Tm := BitVec 64

/-- `timer::STATE` (device.h lines 1708-1713). -/
inductive St where
  | stop | work | pause
  deriving DecidableEq

/-- The fields of `timer` (device.h lines 1772-1776). -/
structure Tmr where
  last : Tm := 0
  work : Tm := 0
  state : St := .stop
  countdown : Tm := 0
  deriving DecidableEq

/-- `timer::start` (device.cpp lines 3532-3544). -/
def Tmr.start (now : Tm) (t : Tmr) : Tmr :=
  let t := if t.state = .stop then { t with work := 0 } else t
  if t.state = .pause ∨ t.state = .stop then { t with state := .work, last := now } else t

/-- `timer::reset` (device.cpp lines 3546-3550). -/
def Tmr.reset (t : Tmr) : Tmr := { t with state := .stop, work := 0 }

/-- `timer::pause` (device.cpp lines 3552-3559). -/
def Tmr.pause (now : Tm) (t : Tmr) : Tmr :=
  let t := if t.state = .work then { t with work := t.work + Time.deltaMs now t.last } else t
  { t with state := .pause }

/-- `timer::is_time_up` (device.cpp lines 3561-3576): the working time is cut to the 32 bits of `u_int`. -/
def Tmr.isTimeUp (now : Tm) (t : Tmr) : Bool :=
  if t.state = .work then
    let time : BitVec 32 := (t.work + Time.deltaMs now t.last).truncate 32
    if time.zeroExtend 64 ≤ t.countdown then false else true
  else false

/-- `timer::get_work_time` (device.cpp lines 3578-3588). -/
def Tmr.getWorkTime (now : Tm) (t : Tmr) : Tm :=
  if t.state = .work then t.work + Time.deltaMs now t.last else t.work

/-- `timer::set_countdown_time` (device.cpp lines 3590-3603), without the debug message. -/
def Tmr.setCountdown (c : Tm) (t : Tmr) : Tmr := { t with countdown := c }

/-- The calls that change a timer. -/
inductive Cmd where
  | start | reset | pause | countdown (c : Tm)
  deriving DecidableEq

/-- One call, made when the clock shows `now`. -/
def Tmr.step (t : Tmr) (e : Tm × Cmd) : Tmr :=
  match e.2 with
  | .start => t.start e.1
  | .reset => t.reset
  | .pause => t.pause e.1
  | .countdown c => t.setCountdown c

/-- Calls in turn. -/
def Tmr.run (t : Tmr) (h : List (Tm × Cmd)) : Tmr := h.foldl Tmr.step t

/-- `timer_manager` (device.h lines 1782-1806): the array and the stub. -/
structure Mgr where
  timers : List Tmr
  stub : Tmr := {}

/-- Which object `timer_manager::operator[]( index )` returns (device.cpp lines 3631-3649): position in the array, or the
stub (`none`).  The subtraction is one of 32-bit unsigned numbers. -/
def Mgr.pick (m : Mgr) (index : BitVec 32) : Option Nat :=
  let index := index - 1
  if index.toNat < m.timers.length then some index.toNat else none

/-- A call on the timer of an index. -/
def Mgr.step (m : Mgr) (index : BitVec 32) (e : Tm × Cmd) : Mgr :=
  match m.pick index with
  | some i => { m with timers := m.timers.modify i (·.step e) }
  | none => { m with stub := m.stub.step e }

/-- The timer of an index. -/
def Mgr.get (m : Mgr) (index : BitVec 32) : Tmr :=
  match m.pick index with
  | some i => m.timers.getD i m.stub
  | none => m.stub

end Ptusa.Timer
