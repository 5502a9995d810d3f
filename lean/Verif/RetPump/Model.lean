/-!
# The return pump of a washing line

Model of `SetRet`, `ForceRet`, `GetRetState`, `HasRet` (PAC/common/cip_tech_def.cpp 1722-1771, 3254-3293), of the timer of the level before the pump (2247, 2737-2743), of the commands of the
operator (1988-1999), of the beginning of a step (2243-2253), of `_StopDev` and the pause (1547-1548, 2443-2444), and of the coils of the panel (PAC/common/modbus_serv.cpp 212-228).

The line has the pump and the sensor of the level before it.  Times are in milliseconds and do not run over; the delay is not negative.  A pump does what it is told.  What a step does is the list of its
calls of `SetRet` in a cycle.
-/
namespace Ptusa.RetPump

/-- `ret_overrride`, the pump, `ret_pums_ls_timer`, `state` other than 0. -/
structure St where
  over : Bool := false
  pump : Bool := false
  timer : Nat := 0
  running : Bool := false
  deriving DecidableEq, Repr

/-- What is read: the time and whether the sensor is active. -/
structure In where
  t : Nat
  wet : Bool
  deriving DecidableEq, Repr

/-- `SetRet` (lines 1722-1771) with the delay `d`. -/
def St.setRet (d : Nat) (i : In) (s : St) (on : Bool) : St :=
  if s.over then s
  else
    let toset := if i.wet = false ∧ d < i.t - s.timer then false else on
    { s with pump := toset }

/-- `ForceRet` (lines 3287-3293). -/
def St.forceRet (d : Nat) (i : In) (s : St) (on : Bool) : St :=
  { ({ s with over := false } : St).setRet d i on with over := true }

inductive Ev where
  /-- A step begins, and calls `SetRet`. -/
  | step (i : In) (calls : List Bool)
  /-- A cycle of a step. -/
  | cycle (i : In) (calls : List Bool)
  /-- `MCMD_FORCE_RET_ON`, `MCMD_FORCE_RET_OFF`. -/
  | force (i : In) (on : Bool)
  /-- `Stop`. -/
  | stop (i : In)
  /-- The pause: the beginning of step 555. -/
  | pause (i : In)
  deriving DecidableEq, Repr

/-- One event. -/
def St.next (d : Nat) (s : St) : Ev → St
  | .step i calls => calls.foldl (St.setRet d i) { s with over := false, timer := i.t, running := true }
  | .cycle i calls => calls.foldl (St.setRet d i) { s with timer := if i.wet then i.t else s.timer }
  | .force i on => if s.running then s.forceRet d i on else s
  | .stop i => { ({ s with over := false } : St).setRet d i false with running := false }
  | .pause i => ({ s with over := false, timer := i.t, running := true } : St).setRet d i false

/-- A history. -/
def run (d : Nat) (h : List Ev) : St := h.foldl (St.next d) {}

/-- `GetRetState` (lines 3254-3269), with the states of the motor and of the signal to the pump, if there are any. -/
def getRetState (running : Bool) (motor signal : Option Int) : Int :=
  if running = false then 0
  else
    match motor with
    | some m => m
    | none =>
      match signal with
      | some u => u
      | none => 0

/-- `HasRet` (lines 3271-3285). -/
def hasRet (running : Bool) (motor signal : Option Int) : Bool := running && (motor.isSome || signal.isSome)

/-- A coil of the group of control (modbus_serv.cpp 212-228) for lines given by what they show: `none` reads before the list, `some none` leaves the coil as it was. -/
def coil (lines : List (Bool × Option Int × Option Int)) (number : Nat) : Option (Option Bool) :=
  let line := number / 100
  let obj := number - 100 * line
  if line ≤ lines.length then
    if obj = 0 ∨ obj = 1 then
      if line = 0 then none
      else
        (lines[line - 1]?).map fun l => some (if obj = 0 then getRetState l.1 l.2.1 l.2.2 != 0 else hasRet l.1 l.2.1 l.2.2)
    else some none
  else some none

end Ptusa.RetPump
