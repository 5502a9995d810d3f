import Mathlib.Data.Rat.Defs

/-!
# Power supply with eight channels, without input/output modules

Model of the branches with `is_emulator` of `power_unit` (PAC/common/device/device.cpp 618-1002, device.h 1565-1690).  With modules see
`Supply`.  Without modules `evaluate_io` returns at once (646-650), so the inputs are what the commands wrote.  Simplification: `double`
is `Rat`; channel `i` counts from 0, `idx` of the commands from 1.
-/
namespace Ptusa.EmuPower

/-- A conversion of a floating point value to an integer drops the fraction. -/
def trunc (v : Rat) : Int := if 0 ≤ v then v.floor else v.ceil

/-- `static_cast<int8_t>( val )`: undefined if the whole part does not fit. -/
def toI8 (v : Rat) : Option Int := if -128 ≤ trunc v ∧ trunc v ≤ 127 then some (trunc v) else none

/-- `static_cast<int>( val )`, likewise. -/
def toI32 (v : Rat) : Option Int :=
  if -2147483648 ≤ trunc v ∧ trunc v ≤ 2147483647 then some (trunc v) else none

/-- Writing to the field `int8_t status_chN : 2` (device.h 1626-1633): the two low bits, with sign. -/
def bits2 (n : Int) : Int := if n % 4 < 2 then n % 4 else n % 4 - 4

/-- Writing to the field `uint8_t nominal_current_chN : 3` (device.h 1636-1646): the three low bits. -/
def bits3 (n : Int) : Int := n % 8

/-- The unit: the fields of `p_data_in`, `st`, the manual mode. -/
structure Pu where
  status : Fin 8 → Int := fun _ => 0
  cur : Fin 8 → Int := fun _ => 0
  st : Int := 0
  manual : Bool := false

/-- `status_ch1 || … || status_ch8`. -/
def anyOn (f : Fin 8 → Int) : Int :=
  if f 0 ≠ 0 ∨ f 1 ≠ 0 ∨ f 2 ≠ 0 ∨ f 3 ≠ 0 ∨ f 4 ≠ 0 ∨ f 5 ≠ 0 ∨ f 6 ≠ 0 ∨ f 7 ≠ 0 then 1 else 0

/-- `direct_on`: device.cpp 796-822 (`true` becomes 1, which in the field of two bits is 1). -/
def directOn (s : Pu) : Pu := { s with status := fun _ => bits2 1, st := 1 }

/-- `direct_off`: device.cpp 824-850. -/
def directOff (s : Pu) : Pu := { s with status := fun _ => bits2 0, st := 0 }

/-- `on` and `off` of `device`: base.cpp 321-345. -/
def on (s : Pu) : Pu := if s.manual then s else directOn s

/-- See `on`. -/
def off (s : Pu) : Pu := if s.manual then s else directOff s

/-- The `switch` over `idx`: the channel of number `idx` is changed. -/
def put (f : Fin 8 → Int) (idx : Nat) (x : Int) : Fin 8 → Int := fun i => if i.val + 1 = idx then x else f i

/-- What happens: `on` and `off` of the program; the commands `ST`, `ST_CH`, `NOMINAL_CURRENT_CH` by name; the manual mode; a cycle. -/
inductive Ev where
  | on | off
  | st (v : Rat)
  | ch (idx : Nat) (v : Rat)
  | nominal (idx : Nat) (v : Rat)
  | manual (m : Bool)
  | cycle

/-- One event; `none` is undefined behaviour.  `set_cmd`: device.cpp 852-1002. -/
def step (s : Pu) : Ev → Option Pu
  | .on => some (EmuPower.on s)
  | .off => some (EmuPower.off s)
  | .st v => (toI32 v).map fun n => if n ≠ 0 then EmuPower.on s else EmuPower.off s
  | .ch idx v => (toI8 v).map fun n =>
      { s with status := put s.status idx (bits2 n), st := anyOn (put s.status idx (bits2 n)) }
  | .nominal idx v => (toI8 v).map fun n => { s with cur := put s.cur idx (bits3 n) }
  | .manual m => some { s with manual := m }
  | .cycle => some s

/-- Events in turn, from the start. -/
def run (h : List Ev) : Option Pu := h.foldlM step {}

end Ptusa.EmuPower
