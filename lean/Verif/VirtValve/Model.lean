import Verif.ValveOff.Spec

/-!
# Virtual valves

Model of `virtual_valve` (PAC/common/device/device.cpp 354-357, valve.h 189-193; subtype `V_VIRT`, manager.cpp 696): it has no channels
and no code of its own, so that commands are those of `device` (base.cpp 211-225) and the state that of `valve` (valve.cpp 107-285,
316-319), with the delayed closing of all valves (`ValveOff`).  Simplification: the conversion of a number to `VALVE_STATE` keeps it
(gcc does; the standard leaves numbers outside 0..7 undefined).
-/
namespace Ptusa.VirtValve

open Ptusa.ValveOff (Cls Fleet Ev)
open Ptusa.ValveOff (Tm)

/-- A virtual valve: the field `state` of `device`; `on_fb`, `off_fb` (valve.h 154-155), which the constructor without feedbacks
(valve.cpp 72-76) leaves false. -/
structure Body where
  state : Int := 0
  onFb : Bool := false
  offFb : Bool := false
  deriving DecidableEq

/-- `valve::get_valve_state` (valve.cpp 316-319). -/
def valveState (b : Body) : Int := b.state

/-- The class, for `valve::on`, `off`, `evaluate`: `device::direct_on`, `direct_off`, `direct_set_state` (base.cpp 211-225); open
seats are the numbers 2 and 3 (valve.cpp 396-398). -/
def cls : Cls Body where
  directOn _ b := { b with state := 1 }
  directOff _ b := { b with state := 0 }
  directSet _ n b := { b with state := n }
  seat b := decide (valveState b = 2) || decide (valveState b = 3)

/-- `valve::get_state` (valve.cpp 107-285) for `is_on_fb = is_off_fb = false`. -/
def getState (emu manual : Bool) (b : Body) : Int :=
  if emu then b.state
  else if valveState b = 3 then (if manual then 23 else 3)
  else if valveState b = 2 then (if manual then 22 else 2)
  else if valveState b = 1 then (if manual then 21 else 1)
  else if valveState b = 0 then (if manual then 20 else 0)
  else if valveState b = 5 then 5
  else 100

/-- `is_opened` (valve.cpp 372-375, 383-386). -/
def isOpened (b : Body) : Bool := b.onFb

/-- `is_closed` (valve.cpp 377-380, 389-392). -/
def isClosed (b : Body) : Bool := b.offFb

/-- `valve::set_cmd` for names that begin with `F` (valve.cpp 288-301); `on`: the name is `FB_ON_ST`.  With modules nothing is set. -/
def setFb (emu on val : Bool) (b : Body) : Body :=
  if emu then (if on then { b with onFb := val } else { b with offFb := val }) else b

/-- What happens to the valves: events of `ValveOff`, a feedback set by name. -/
inductive Act where
  | on (i : Nat) (t : Tm)
  | off (i : Nat) (t : Tm)
  | instantOff (i : Nat) (t : Tm)
  | set (i : Nat) (t : Tm) (n : Int)
  | oper (i : Nat) (t : Tm) (n : Int)
  | manual (i : Nat) (m : Bool)
  | fb (i : Nat) (w val : Bool)
  | evaluate (t : Tm) (delay bdelay : BitVec 32)

/-- As events of all valves. -/
def Act.ev (emu : Bool) : Act → Ev Body
  | .on i t => .on i t
  | .off i t => .off i t
  | .instantOff i t => .instantOff i t
  | .set i t n => .setState i t n
  | .oper i t n => .oper i t n
  | .manual i m => .manual i m
  | .fb i w val => .io i (setFb emu w val)
  | .evaluate t d bd => .evaluate t d bd

/-- The valves after a history from the start of the program. -/
def run (emu : Bool) (h : List Act) : Fleet Body := (ValveOff.start fun _ => {}).run (fun _ => cls) (h.map (Act.ev emu))

/-- What `get_state` of valve `i` returns after a history. -/
def shown (emu : Bool) (h : List Act) (i : Nat) : Int :=
  getState emu ((run emu h).vs i).manual ((run emu h).vs i).body

end Ptusa.VirtValve
