import Mathlib.Data.Rat.Defs

/-!
# Flow and temperature of counters without input/output modules

Model of `counter_f` (PAC/common/device/device.cpp 1403-1450, simulated) and `counter_iolink` (1462-1568, without data).  With modules
see `Fqt`.  Simplification: `double` and `float` are `Rat`.
-/
namespace Ptusa.EmuFlow

/-- The classes: `counter_f`, `counter_iolink`. -/
inductive Kind where
  | pulse | iolink
  deriving DecidableEq

/-- A conversion of a floating point value to an integer drops the fraction. -/
def trunc (v : Rat) : Int := if 0 ≤ v then v.floor else v.ceil

/-- `static_cast<int16_t>`: undefined if the whole part does not fit. -/
def toI16 (v : Rat) : Option Int := if -32768 ≤ trunc v ∧ trunc v ≤ 32767 then some (trunc v) else none

/-- Writing to the field `int16_t temperature : 14` (device.h 1337): the fourteen low bits, with sign. -/
def bits14 (n : Int) : Int := (n + 8192) % 16384 - 8192

/-- `flow_value` of `counter_f`; `in_info.flow` and `in_info.temperature` of `counter_iolink`; the parameter `P_CZ`. -/
structure Ctr where
  fval : Rat := 0
  flow : Int := 0
  temp : Int := 0
  cz : Rat := 0

/-- `get_flow`: device.cpp 1403-1408, 1537-1541. -/
def getFlow (k : Kind) (s : Ctr) : Rat :=
  match k with
  | .pulse => s.cz + s.fval
  | .iolink => s.cz + s.flow * (1 / 100)

/-- `counter_iolink::get_temperature`: device.cpp 1496-1499. -/
def getTemp (s : Ctr) : Rat := 1 / 10 * s.temp

/-- What happens: the commands `F` and `T` by name, the parameter, anything else (a cycle, other commands of `Fqt`). -/
inductive Ev where
  | flow (v : Rat)
  | temp (v : Rat)
  | zero (c : Rat)
  | other

/-- One event; `none` is undefined behaviour.  `set_cmd`: device.cpp 1436-1449 (`T` falls to `device`, which does not know it),
1552-1568; `evaluate_io` copies nothing without data (1462-1466). -/
def step (k : Kind) (s : Ctr) : Ev → Option Ctr
  | .flow v =>
    match k with
    | .pulse => some { s with fval := v }
    | .iolink => (toI16 (v * 100)).map fun n => { s with flow := n }
  | .temp v =>
    match k with
    | .pulse => some s
    | .iolink => (toI16 (v * 10)).map fun n => { s with temp := bits14 n }
  | .zero c => some { s with cz := c }
  | .other => some s

/-- Events in turn, from the start. -/
def run (k : Kind) (h : List Ev) : Option Ctr := h.foldlM (step k) {}

end Ptusa.EmuFlow
