import Verif.EmuDev.Spec

/-!
# Virtual devices

Model of `virtual_motor`, `virtual_wages`, `virtual_device` (PAC/common/device/device.cpp 1748-1790, 2235-2269, 3657-3708; the classes
of the subtypes `.._VIRT`, manager.cpp 696-1249) and of `dev_stub`, which stands for unknown devices (device.cpp 360-420).  None of
them looks at `is_emulator`.  The manual mode is that of `device` (base.cpp 232-238, 321-345; device.cpp 319-351).
Simplification: values are rationals.
-/
namespace Ptusa.VirtDev

open Ptusa.Valve (Tm)
open Ptusa.EmuDev (inManual stateOf valueOf)

/-- The classes; scales and motors have no `set_rt_par`. -/
inductive Kind where
  | motor | scales | other | stub
  deriving DecidableEq

/-- Private fields `value`, `state`, `level_logic_invert` (device.h 519-520, 741-743, 816-817) and the manual mode of `device`. -/
structure Dev where
  value : Rat := 0
  state : Int := 0
  invert : Bool := false
  manual : Bool := false

/-- `direct_on`: device.cpp 1773-1776, 2257-2260, 3678-3681, 405-408. -/
def directOn (k : Kind) (d : Dev) : Dev :=
  match k with
  | .stub => d
  | _ => { d with state := 1 }

/-- `direct_off`: device.cpp 1749-1753, 2236-2240, 3657-3661, 410-413. -/
def directOff (k : Kind) (d : Dev) : Dev :=
  match k with
  | .stub => d
  | _ => { d with state := 0, value := 0 }

/-- `direct_set_state`: device.cpp 1768-1771, 2252-2255, 3673-3676, 416-419. -/
def directSet (k : Kind) (n : Int) (d : Dev) : Dev :=
  match k with
  | .stub => d
  | _ => { d with state := n }

/-- `direct_set_value`: device.cpp 1758-1761, 2242-2245, 3663-3666, 371-374. -/
def setValue (k : Kind) (v : Rat) (d : Dev) : Dev :=
  match k with
  | .stub => d
  | _ => { d with value := v }

/-- `set_rt_par`: device.cpp 3694-3702; of `device` for the others, which writes to the journal. -/
def setRt (k : Kind) (idx : Nat) (v : Rat) (d : Dev) : Dev :=
  match k with
  | .other => if idx = 1 then { d with invert := decide (v ≠ 0) } else d
  | _ => d

/-- `get_state`: device.cpp 1778-1781, 2262-2265, 3683-3686, 399-402. -/
def getState (k : Kind) (d : Dev) : Int :=
  match k with
  | .stub => 0
  | _ => d.state

/-- `get_value`: device.cpp 1763-1766, 2247-2250, 3668-3671, 366-369. -/
def getValue (k : Kind) (d : Dev) : Rat :=
  match k with
  | .stub => 0
  | _ => d.value

/-- `is_active`: device.cpp 3688-3692, of the others 313-316. -/
def isActive (k : Kind) (d : Dev) : Bool :=
  match k with
  | .other =>
    let ret := if d.state = 0 then false else true
    if d.invert then !ret else ret
  | _ => if getState k d = 0 then false else true

/-- What happens: as to a simulated device; `reverse` of a motor (base.cpp 477-480); a parameter at run time. -/
inductive Ev where
  | dev (e : EmuDev.Ev)
  | reverse
  | rt (idx : Nat) (v : Rat)

/-- One event at a time.  `on`, `off`, `set_state`, `set_value` of the program look at the manual mode; those of the stub do nothing
(device.cpp 376-394). -/
def step (k : Kind) (d : Dev) (e : Tm × Ev) : Dev :=
  match e.2 with
  | .dev .on => if d.manual then d else directOn k d
  | .dev .off => if d.manual then d else directOff k d
  | .dev (.set n) => if d.manual then d else directSet k n d
  | .dev (.val v) => if d.manual then d else setValue k v d
  | .dev (.operSet n) => directSet k n d
  | .dev (.operVal v) => setValue k v d
  | .dev (.manual m) => { d with manual := m }
  | .dev (.noise _) => d
  | .dev (.input _) => d
  | .reverse => if k = .motor then (if d.manual then d else directSet k 2 d) else d
  | .rt idx v => setRt k idx v d

/-- Events in turn, from the start. -/
def run (k : Kind) (h : List (Tm × Ev)) : Dev := h.foldl (step k) {}

end Ptusa.VirtDev
