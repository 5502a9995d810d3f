import Verif.Base.Fl

/-!
# Commands of the server to devices: `set_cmd( name, idx, value )`

PAC/common/device/base.cpp 321-353 (`device`), 607-624 (`virtual_counter`), 68-89 (parameters); device.cpp 209-222 (`camera`), 1249-1273
(`base_counter`), 1436-1449 (`counter_f`), 1552-1570 (`counter_iolink`), 3462-3491 (`analog_io_device`), 3884-3919 (`motor_altivar`);
valve.cpp 288-304 (`valve`), 1451-1475, 1677-1700, 2161-2184 (IO-Link valves), 2629-2652 (`analog_valve_iolink`).  What the state and
the value do to a device is in the models `Device`, `Valve`, ...; here a command is followed up to the variable of the device that it
sets.  `circuit_breaker` and `power_unit` are in the model `Supply`.  `static_cast< float >` does not round.
-/
namespace Ptusa.DevCmd

/-- The name of a property, without the zero at its end. -/
abbrev Name := List Char

inductive Cls where
  | plain
  /-- `virtual_counter` -/
  | vcounter
  | camera
  /-- `counter` -/
  | counter
  | counterF
  | counterIol
  /-- `analog_io_device` -/
  | analog
  | valve
  /-- `valve_iolink_mix_proof`, `valve_iolink_shut_off_sorio`, `valve_iolink_shut_off_thinktop` -/
  | valveIol
  /-- `analog_valve_iolink` -/
  | analogValve
  | altivar
  deriving DecidableEq

/-- What a command can set. `state` and `value`: the arguments of `direct_set_state` and `direct_set_value`. -/
inductive Field where
  | state | value | manual
  | par (n : Name)
  | abs | day1 | day2 | prev1 | prev2 | flow | temp
  | emul | mean | dev | blink | fbOn | fbOff
  | reverse | freq | rpm | est | amp
  | result | ready
  deriving DecidableEq

/-- The character `prop[ i ]`; behind the zero at the end nothing may be read. -/
def ch (n : Name) (i : Nat) : Option Char :=
  if i < n.length then n[i]? else if i = n.length then some '\x00' else none

/-- The whole part, when it lies between `lo` and `hi`; otherwise the conversion is undefined. -/
def whole (lo hi : Int) : Fl → Option Fl
  | .nan => none
  | .num q =>
    let t := Int.tdiv q.num q.den
    if lo ≤ t ∧ t ≤ hi then some (.num t) else none

def int32 : Fl → Option Fl := whole (-2 ^ 31) (2 ^ 31 - 1)
def uint32 : Fl → Option Fl := whole 0 (2 ^ 32 - 1)
def int16 : Fl → Option Fl := whole (-2 ^ 15) (2 ^ 15 - 1)

/-- A truth value. -/
def bit (b : Bool) : Fl := if b then 1 else 0

/-- The result of a command: what it returns and what it sets; `none`: undefined. -/
abbrev Res := Option (Int × Option (Field × Fl))

def sets (f : Field) (v : Fl) : Res := some (0, some (f, v))
def setsIf (f : Field) (v : Option Fl) : Res := v.bind fun v => sets f v

/-- `device::set_cmd` (base.cpp lines 321-353); `pars`: the names of the parameters (lines 68-89). -/
def device (pars : List Name) (n : Name) (v : Fl) : Res :=
  match ch n 0 with
  | some 'S' => setsIf .state (int32 v)
  | some 'V' => sets .value v
  | some 'M' => if v.eq 0 then sets .manual 0 else if v.eq 1 then sets .manual 1 else some (0, none)
  | some 'P' => if n ∈ pars then sets (.par n) v else some (1, none)
  | _ => some (1, none)

/-- `base_counter::set_cmd` (device.cpp lines 1249-1273). -/
def baseCounter (pars : List Name) (n : Name) (v : Fl) : Res :=
  match ch n 0 with
  | some 'A' => sets .abs v
  | some 'D' => (ch n 5).bind fun c => if c = '1' then sets .day1 v else sets .day2 v
  | _ =>
    if n = "PREV_DAY_T1".toList then sets .prev1 v
    else if n = "PREV_DAY_T2".toList then sets .prev2 v
    else device pars n v

/-- `valve::set_cmd` (valve.cpp lines 288-304). -/
def valve (emu : Bool) (pars : List Name) (n : Name) (v : Fl) : Res :=
  if emu = true ∧ ch n 0 = some 'F' then
    if n = "FB_ON_ST".toList then sets .fbOn (bit (!v.eq 0)) else sets .fbOff (bit (!v.eq 0))
  else device pars n v

/-- `analog_io_device::set_cmd` (device.cpp lines 3462-3491). -/
def analog (pars : List Name) (n : Name) (v : Fl) : Res :=
  if n = "M_EXP".toList then sets .mean v
  else if n = "S_DEV".toList then sets .dev v
  else if ch n 0 = some 'E' then sets .emul (bit (!v.eq 0))
  else device pars n v

/-- A call whose result is not passed on. -/
def always0 (r : Res) : Res := r.map fun x => (0, x.2)

/-- `set_cmd` of each class. -/
def cmd (emu : Bool) (pars : List Name) (c : Cls) (n : Name) (v : Fl) : Res :=
  match c with
  | .plain => device pars n v
  | .vcounter =>
    match ch n 0 with
    | some 'A' => setsIf .abs (uint32 v)
    | some 'F' => sets .flow v
    | _ => device pars n v
  | .camera =>
    if n = "RESULT".toList then setsIf .result (int32 v)
    else if n = "READY".toList then sets .ready (bit (Fl.lt 0 v))
    else always0 (device pars n v)
  | .counter => baseCounter pars n v
  | .counterF =>
    match ch n 0 with
    | some 'F' => sets .flow v
    | _ => baseCounter pars n v
  | .counterIol =>
    match ch n 0 with
    | some 'F' => setsIf .flow (int16 (v * 100))
    | some 'T' => setsIf .temp (int16 (v * 10))
    | _ => baseCounter pars n v
  | .analog => analog pars n v
  | .valve => valve emu pars n v
  | .valveIol =>
    match ch n 0 with
    | some 'B' => sets .blink (bit (Fl.lt 0 v))
    | _ => always0 (valve emu pars n v)
  | .analogValve =>
    match ch n 0 with
    | some 'B' => sets .blink (bit (Fl.lt 0 v))
    | _ => always0 (analog pars n v)
  | .altivar =>
    if emu = true ∧ n = "R".toList then setsIf .reverse (int32 v)
    else if emu = true ∧ n = "FRQ".toList then sets .freq v
    else if emu = true ∧ n = "RPM".toList then setsIf .rpm (int32 v)
    else if emu = true ∧ n = "EST".toList then setsIf .est (int32 v)
    else if emu = true ∧ n = "AMP".toList then sets .amp v
    else device pars n v

/-- The variables of a device. -/
abbrev St := Field → Fl

/-- A command. -/
structure Cmd where
  name : Name
  v : Fl
  deriving DecidableEq

/-- One command: what is returned and the new state. -/
def step (emu : Bool) (pars : List Name) (c : Cls) (s : St) (k : Cmd) : Option (Int × St) :=
  (cmd emu pars c k.name k.v).map fun (r, w) =>
    (r, match w with
      | some (f, v) => fun x => if x = f then v else s x
      | none => s)

/-- A history of commands. -/
def run (emu : Bool) (pars : List Name) (c : Cls) (s : St) : List Cmd → Option St
  | [] => some s
  | k :: ks => (step emu pars c s k).bind fun (_, s) => run emu pars c s ks

end Ptusa.DevCmd
