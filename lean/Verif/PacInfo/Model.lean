import Verif.Time.Model

/-!
# System information: `PAC/common/PAC_info.{h,cpp}`

`u_int_4` fields are natural numbers reduced modulo 2^32 where the code stores them; the clock is the 64-bit
`unsigned long` of `get_millisec`.
-/
namespace Ptusa.PacInfo

/-- Storing in a `u_int_4`. -/
def u32 (n : Nat) : Nat := n % 4294967296

/-- `get_delta_millisec( t )` when the clock shows `now`. -/
def delta (now t : Nat) : Nat := (Time.deltaMs (BitVec.ofNat 64 now) (BitVec.ofNat 64 t)).toNat

/-- `MSEC_IN_DAY`, PAC_info.cpp 19. -/
def msecInDay : Nat := 86400000

/-- The fields concerned, PAC_info.h 117-137: the published uptime, the parameters in memory (`mode`,
`manualTime`) and as saved (`nvMode`, `nvManualTime`). -/
structure Info where
  days : Nat := 0
  hours : Nat := 0
  mins : Nat := 0
  secs : Nat := 0
  msec : Nat := 0
  last : Nat
  mode : Nat := 0
  manualTime : Nat := 120000
  nvMode : Nat := 0
  nvManualTime : Nat := 120000
  offTime : Nat := 0
  deriving DecidableEq, Repr

/-- The clock readings of one evaluation, in program order, PAC_info.cpp 45, 52, 54, 60. -/
structure Clock where
  t0 : Nat
  t1 : Nat
  t2 : Nat
  t3 : Nat
  deriving DecidableEq, Repr

/-- The restrictions part of `eval`, PAC_info.cpp 44-50: the mode is changed in memory only. -/
def evalMode (i : Info) (now : Nat) : Info :=
  if i.offTime ≠ 0 ∧ delta now i.offTime > i.manualTime then { i with mode := 0, offTime := 0 } else i

/-- The uptime part of `eval`, PAC_info.cpp 52-69. -/
def evalTime (i : Info) (c : Clock) : Info :=
  if delta c.t1 i.last > 1000 then
    let sum := u32 (i.msec + delta c.t2 i.last)
    let i1 := if sum ≥ msecInDay then { i with days := u32 (i.days + 1), msec := sum % msecInDay }
      else { i with msec := sum }
    { i1 with last := u32 c.t3, hours := i1.msec / 3600000, mins := i1.msec / 60000 % 60,
              secs := i1.msec / 1000 % 60 }
  else i

/-- `PAC_info::eval`, PAC_info.cpp 42-70. -/
def eval (i : Info) (c : Clock) : Info := evalTime (evalMode i c.t0) c

/-- A number sent by the server, in thousandths; conversion to `u_int_4` is undefined outside its range. -/
structure Val where
  milli : Int
  deriving DecidableEq, Repr

/-- `(u_int_4)val`. -/
def Val.toU (v : Val) : Option Nat :=
  if 0 ≤ v.milli ∧ v.milli < 4294967296000 then some (v.milli.toNat / 1000) else none

/-- `set_cmd( "P_RESTRICTIONS_MODE" )`, PAC_info.cpp 261-275; `none`: undefined conversion. -/
def setMode (i : Info) (v : Val) (now : Nat) : Option Info :=
  v.toU.map fun n =>
    { i with mode := n, nvMode := n, offTime := if v.milli = 2000 then u32 now else 0 }

/-- `set_cmd( "P_RESTRICTIONS_MANUAL_TIME" )`, PAC_info.cpp 276-280. -/
def setTime (i : Info) (v : Val) : Option Info :=
  v.toU.map fun n => { i with manualTime := n, nvManualTime := n }

/-- `reset_params` (command RESET_PARAMS), PAC_info.cpp 72-95. -/
def resetParams (i : Info) : Info :=
  { i with mode := 0, nvMode := 0, manualTime := 120000, nvManualTime := 120000 }

/-- A restart: the constructor (22-36) and the saved parameters. -/
def restart (i : Info) (now : Nat) : Info :=
  { last := u32 now, mode := i.nvMode, nvMode := i.nvMode, manualTime := i.nvManualTime,
    nvManualTime := i.nvManualTime }

/-- Events. -/
inductive Ev
  | eval (c : Clock)
  | mode (v : Val) (now : Nat)
  | time (v : Val)
  | reset
  | restart (now : Nat)
  deriving Repr

/-- One event. -/
def step (i : Info) : Ev → Option Info
  | .eval c => some (eval i c)
  | .mode v now => setMode i v now
  | .time v => setTime i v
  | .reset => some (resetParams i)
  | .restart now => some (restart i now)

/-- A history. -/
def run : List Ev → Info → Option Info
  | [], i => some i
  | e :: es, i => (step i e).bind (run es)

/-- `check_operation_on` consults the restrictions only in mode 0, PAC/common/tech_def.cpp 462. -/
def restricted (i : Info) : Bool := i.mode == 0

end Ptusa.PacInfo
