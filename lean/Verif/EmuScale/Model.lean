import Mathlib.Data.Rat.Defs

/-!
# Scales without input/output modules

Model of the branches with `is_emulator` of `wages` (PAC/common/device/device.cpp 2063-2138), `wages_RS232` (1844-1898) and `wages_eth`
(1907-1958) with `iot_wages_eth` (PAC/IoT/iot_wages_eth.cpp 21-39, iot_base.cpp 3-6).  With modules see `Scales`.  The manual mode is
that of `device` (base.cpp 232-238, 321-345; device.cpp 319-351).  Simplifications: values are rationals; random values are not asked
for; scales on the network have their address (`weth` is set).
-/
namespace Ptusa.EmuScale

/-- The classes. -/
inductive Kind where
  | strain | rs232 | eth
  deriving DecidableEq

/-- Scales: `state` and `value` of `device`; the fields of the class: the weight (`weight`, `value` of the class, `value` of
`iot_wages_eth`), its state, the parameter `P_CZ`; the manual mode. -/
structure Sc where
  dstate : Int := 0
  dvalue : Rat := 0
  weight : Rat := 0
  state : Int := 0
  cz : Rat := 0
  manual : Bool := false

/-- After the constructors (device.h 558-559, iot_wages_eth.h). -/
def Sc.new : Kind → Sc
  | .rs232 => { state := 1 }
  | _ => {}

/-- `tare`: device.cpp 2074-2078, 1894-1898, 1924-1928. -/
def tare (k : Kind) (s : Sc) : Sc :=
  match k with
  | .strain => { s with cz := -s.weight }
  | _ => s

/-- `direct_on`: of `device` (base.cpp 217-220); device.cpp 1955-1958 with `i_iot_node::set_state`, which does nothing. -/
def directOn (k : Kind) (s : Sc) : Sc :=
  match k with
  | .eth => s
  | _ => { s with dstate := 1 }

/-- `direct_off`: of `device` (base.cpp 211-215); device.cpp 1950-1953. -/
def directOff (k : Kind) (s : Sc) : Sc :=
  match k with
  | .eth => s
  | _ => { s with dstate := 0, dvalue := 0 }

/-- `direct_set_state`: device.cpp 2115-2126 (`S_TARE` is 1), of `device` (base.cpp 222-225), 1945-1948. -/
def directSet (k : Kind) (n : Int) (s : Sc) : Sc :=
  match k with
  | .strain => if n = 1 then tare .strain s else s
  | .rs232 => { s with dstate := n }
  | .eth => { s with state := n }

/-- `direct_set_value`: device.cpp 2110-2113, 1888-1892, 1940-1943 with iot_wages_eth.cpp 31-34. -/
def setValue (k : Kind) (v : Rat) (s : Sc) : Sc :=
  match k with
  | .strain => { s with weight := v }
  | .rs232 => { s with dvalue := v }
  | .eth => if 0 ≤ v then { s with weight := v } else s

/-- `evaluate_io`: device.cpp 1876-1886, 1917-1922. -/
def evaluate (k : Kind) (s : Sc) : Sc :=
  match k with
  | .rs232 => { s with weight := s.dvalue }
  | _ => s

/-- `get_value`: device.cpp 2103-2108, 1844-1847, 1907-1910. -/
def getValue (s : Sc) : Rat := s.weight + s.cz

/-- `get_state`: device.cpp 2128-2131, 1868-1874, 1912-1915. -/
def getState (k : Kind) (s : Sc) : Int :=
  match k with
  | .strain => 0
  | _ => s.state

/-- What happens: commands of the program (`on`, `off`, `set`, `val`), of the operator (`operSet`, `operVal`, `zero`: `P_CZ`), the
manual mode, `tare`, a cycle. -/
inductive Ev where
  | on | off
  | set (n : Int)
  | val (v : Rat)
  | operSet (n : Int)
  | operVal (v : Rat)
  | zero (c : Rat)
  | manual (m : Bool)
  | tare
  | cycle

/-- One event. -/
def step (k : Kind) (s : Sc) : Ev → Sc
  | .on => if s.manual then s else directOn k s
  | .off => if s.manual then s else directOff k s
  | .set n => if s.manual then s else directSet k n s
  | .val v => if s.manual then s else setValue k v s
  | .operSet n => directSet k n s
  | .operVal v => setValue k v s
  | .zero c => { s with cz := c }
  | .manual m => { s with manual := m }
  | .tare => EmuScale.tare k s
  | .cycle => evaluate k s

/-- Events in turn, from the start. -/
def run (k : Kind) (h : List Ev) : Sc := h.foldl (step k) (Sc.new k)

end Ptusa.EmuScale
