import Verif.Motor.Model

/-!
# Signals, sensors and motors without input/output modules

Model, in both modes of `PAC_info::is_emulator` (PAC/common/PAC_info.cpp 371-386), of the signals `DO1`, `DI1`
(device/device.cpp 31-51, 1588-1635), `AO1` and sensors `AI1` (device/base.cpp 505-527, 687-733), of `motor` (device.cpp 2273-2523,
with modules as in `Motor`), `motor_altivar` (device.cpp 3757-3838) and `circuit_breaker` (device.cpp 3163-3229), on the fields
`state` and `value` of `device` (base.cpp 211-248).  Simplifications: values are rationals without rounding and within the limits of
an output; the process image of a circuit breaker is not read (`evaluate_io`).
-/
namespace Ptusa.EmuDev

open Ptusa.Valve (Tm)

/-- The classes. -/
inductive Kind where
  | do1 | di1 | ao1 | sensor
  | motor (s : Motor.Sub)
  | inverter
  | breaker

/-- A device: the fields `state`, `value` of `device`, its manual mode; the random value of analog devices is on (`emulation`,
base.cpp 452-459); outputs: the discrete one, the analog one, those of a motor, `cmd` and `reverse` of the node of an inverter and
its frequency, `switch_ch..` of a breaker; the fields `freq` (device.h 910) and `st_ch..` (device.h 305-308). -/
structure Dev where
  state : Int := 0
  value : Rat := 0
  manual : Bool := false
  noisy : Bool := false
  o : Bool := false
  ao : Rat := 0
  mt : Motor.Mt := {}
  cmd : Nat := 0
  rev : Bool := false
  frq : Rat := 0
  sw : Bool := false
  freq : Rat := 0
  st : Bool := false
  deriving DecidableEq

/-- After the constructors: sensors have the state 1 (base.cpp 693), the others 0. -/
def Dev.new : Kind → Dev
  | .sensor => { state := 1 }
  | _ => {}

/-- `direct_on`: device.cpp 39-44, 1597-1600, 2470-2494, 3816-3822, 3175-3190; base.cpp 217-220. -/
def directOn (emu : Bool) (k : Kind) (now : Tm) (d : Dev) : Dev :=
  match k with
  | .do1 => if emu then { d with state := 1 } else { d with o := true }
  | .di1 => if emu then { d with state := 1 } else d
  | .ao1 | .sensor => { d with state := 1 }
  | .motor s => if emu then { d with state := 1 } else { d with mt := Motor.directOn s now d.mt }
  | .inverter => if emu then { d with state := 1 } else { d with cmd := 1, rev := false }
  | .breaker =>
    let d := { d with sw := true }
    if emu then { d with st := true } else d

/-- `direct_off`: device.cpp 46-51, 1602-1605, 2497-2523, 3824-3838 (no fault), 3192-3207; base.cpp 211-215. -/
def directOff (emu : Bool) (k : Kind) (now : Tm) (d : Dev) : Dev :=
  match k with
  | .do1 => if emu then { d with state := 0, value := 0 } else { d with o := false }
  | .di1 => if emu then { d with state := 0, value := 0 } else d
  | .ao1 | .sensor => { d with state := 0, value := 0 }
  | .motor s => if emu then { d with state := 0, value := 0 } else { d with mt := Motor.directOff s now d.mt }
  | .inverter => if emu then { d with state := 0, value := 0 } else { d with cmd := 0, rev := false }
  | .breaker =>
    let d := { d with sw := false }
    if emu then { d with st := false } else d

/-- `direct_set_state`: device.cpp 2309-2374, 3775-3807 (without 100 and 101, which switch the node); of `device` for the others
(base.cpp 222-225). -/
def directSet (emu : Bool) (k : Kind) (now : Tm) (n : Int) (d : Dev) : Dev :=
  match k with
  | .motor s => if emu then { d with state := n } else { d with mt := Motor.directSet s now n d.mt }
  | .inverter =>
    if emu then { d with state := n }
    else if n = 2 then { d with cmd := 2, rev := true }
    else if n ≠ 0 then directOn emu .inverter now d else directOff emu .inverter now d
  | _ => { d with state := n }

/-- `direct_set_value`: base.cpp 227-230, 521-527, 727-733; device.cpp 2295-2307, 3764-3773, 3163-3173 (by `on` and `off`, which look
at the manual mode). -/
def setValue (emu : Bool) (k : Kind) (now : Tm) (v : Rat) (d : Dev) : Dev :=
  match k with
  | .do1 | .di1 => { d with value := v }
  | .ao1 => if emu then { d with value := v } else { d with ao := v }
  | .sensor => if emu then { d with value := v } else d
  | .motor s => if emu then { d with value := v } else { d with mt := Motor.setValue s v d.mt }
  | .inverter => if emu then { d with freq := v } else { d with frq := v }
  | .breaker =>
    if d.manual then d else if v ≠ 0 then directOn emu .breaker now d else directOff emu .breaker now d

/-- `get_state`, simulated: device.cpp 34, 1609, 2378, 3218, 3811; base.cpp 240-243, 699-702. -/
def simState (d : Dev) : Int := d.state

/-- `get_value`, simulated: base.cpp 245-248, 516, 718-721; device.cpp 2282, 3211, 3499-3504 (the value `r` of the emulator), 3759. -/
def simValue (k : Kind) (r : Rat) (d : Dev) : Rat :=
  match k with
  | .do1 | .di1 | .motor _ => d.value
  | .ao1 | .sensor | .breaker => if d.noisy then r else d.value
  | .inverter => d.freq

/-- What happens: `on`, `off`, `set_state`, `set_value` of the program, which look at the manual mode (device.cpp 319-351, base.cpp
232-238); commands `S` and `V` of the operator, which do not (base.cpp 321-336; the command `ST` of a breaker is `on` or `off`, device.cpp
3120-3132); the manual mode, the random values (`E`), an input. -/
inductive Ev where
  | on | off
  | set (n : Int)
  | val (v : Rat)
  | operSet (n : Int)
  | operVal (v : Rat)
  | manual (m : Bool)
  | noise (b : Bool)
  | input (b : Bool)

/-- One event at a time. -/
def step (emu : Bool) (k : Kind) (d : Dev) (e : Tm × Ev) : Dev :=
  match e.2 with
  | .on => if d.manual then d else directOn emu k e.1 d
  | .off => if d.manual then d else directOff emu k e.1 d
  | .set n => if d.manual then d else directSet emu k e.1 n d
  | .val v => if d.manual then d else setValue emu k e.1 v d
  | .operSet n => directSet emu k e.1 n d
  | .operVal v => setValue emu k e.1 v d
  | .manual m => { d with manual := m }
  | .noise b => { d with noisy := b }
  | .input b => { d with mt := { d.mt with i := b } }

/-- Events in turn, from the start. -/
def run (emu : Bool) (k : Kind) (h : List (Tm × Ev)) : Dev := h.foldl (step emu k) (Dev.new k)

end Ptusa.EmuDev
