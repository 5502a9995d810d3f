import Mathlib.Data.Rat.Defs

/-!
# Temperature sensors without input/output modules

Model of the branches with `is_emulator` of `temperature_e` (PAC/common/device/device.cpp 1633-1668), `temperature_e_analog` (1671-1716)
and `temperature_e_iolink` (1719-1752) over `AI1` (base.cpp 687-733) and `device` (base.cpp 211-238, 321-345).  With modules see `AnaDev`
and `IolSens`.  Simplifications: values are rationals; random values are not asked for.
-/
namespace Ptusa.EmuTemp

/-- The classes. -/
inductive Kind where
  | resist | analog | iolink
  deriving DecidableEq

/-- `state` and `value` of `device`, the parameters `P_ERR_T` and `P_CZ`, the manual mode. -/
structure Te where
  state : Int := 1
  value : Rat := 0
  errT : Rat := 0
  cz : Rat := 0
  manual : Bool := false

/-- `direct_off` of `device`: base.cpp 211-215. -/
def directOff (s : Te) : Te := { s with state := 0, value := 0 }

/-- `get_value`: device.cpp 1642-1648, 1681-1686, 1733-1735. -/
def getValue (k : Kind) (s : Te) : Rat :=
  match k with
  | .resist => if s.value = -1000 then s.errT else s.value
  | _ => s.value

/-- `get_state`: device.cpp 1657-1659, 1702-1707; base.cpp 697-702. -/
def getState (s : Te) : Int := s.state

/-- What happens: commands of the program and of the operator, the parameters, the manual mode. -/
inductive Ev where
  | on | off
  | set (n : Int)
  | val (v : Rat)
  | operSet (n : Int)
  | operVal (v : Rat)
  | errT (v : Rat)
  | zero (v : Rat)
  | manual (m : Bool)

/-- One event. -/
def step (s : Te) : Ev → Te
  | .on => if s.manual then s else { s with state := 1 }
  | .off => if s.manual then s else directOff s
  | .set n => if s.manual then s else { s with state := n }
  | .val v => if s.manual then s else { s with value := v }
  | .operSet n => { s with state := n }
  | .operVal v => { s with value := v }
  | .errT v => { s with errT := v }
  | .zero v => { s with cz := v }
  | .manual m => { s with manual := m }

/-- Events in turn, from the start (after the constructor the state is 1, base.cpp 693). -/
def run (h : List Ev) : Te := h.foldl step {}

end Ptusa.EmuTemp
