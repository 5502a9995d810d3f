import Verif.Base.Fl

/-!
# Devices and manual mode

Model of `device` (PAC/common/device/base.cpp lines 210-245, 321-353), `i_DO_device` and `i_AO_device`
(PAC/common/device/device.cpp lines 318-350).  A class of devices is given by what it does when it is driven directly;
the rest is common to all of them.
-/
namespace Ptusa.Device

/-- The overridable functions of a class of devices on its state `σ` (base.h lines 262-272, 308-325). -/
structure Cls (σ : Type) where
  directOn : σ → σ
  directOff : σ → σ
  directSetState : Int → σ → σ
  directSetValue : Fl → σ → σ

/-- State of `device` itself (base.cpp lines 210-230): the class without any override. -/
structure Plain where
  state : Int := 0
  value : Fl := 0
  deriving DecidableEq

/-- `device::direct_on/off/set_state/set_value` (base.cpp lines 210-230). -/
def plain : Cls Plain where
  directOn s := { s with state := 1 }
  directOff _ := { state := 0, value := 0 }
  directSetState n s := { s with state := n }
  directSetValue v s := { s with value := v }

/-- A device: its state and the manual mode flag. -/
structure Dev (σ : Type) where
  body : σ
  manual : Bool := false
  deriving DecidableEq

/-- Commands of the control program (device.cpp lines 318-350, base.cpp lines 232-238). -/
inductive Prog where
  | on | off | instantOff
  | setState (n : Int)
  | setValue (v : Fl)
  deriving DecidableEq

/-- Commands of the operator: `set_cmd` with a property beginning with the letter (base.cpp lines 321-353). -/
inductive Oper where
  | S (v : Fl)
  | V (v : Fl)
  | M (v : Fl)
  deriving DecidableEq

variable {σ : Type}

/-- What a program command does to a device that obeys it. -/
def Cls.obey (c : Cls σ) : Prog → σ → σ
  | .on => c.directOn
  | .off => c.directOff
  | .instantOff => c.directOff
  | .setState n => c.directSetState n
  | .setValue v => c.directSetValue v

/-- `on`, `off`, `instant_off`, `set_state`, `set_value` (device.cpp lines 318-350, base.cpp lines 232-238): all of
them ask for the manual mode first. -/
def Dev.prog (c : Cls σ) (d : Dev σ) (p : Prog) : Dev σ :=
  if !d.manual then { d with body := c.obey p d.body } else d

/-- Conversion of a floating point number to `int`; `none` when it does not fit (undefined in C++). -/
def toInt32 : Fl → Option Int
  | .nan => none
  | .num q =>
    let t := Int.tdiv q.num q.den
    if -2 ^ 31 ≤ t ∧ t < 2 ^ 31 then some t else none

/-- `device::set_cmd` (base.cpp lines 321-353). -/
def Dev.oper (c : Cls σ) (d : Dev σ) : Oper → Option (Dev σ)
  | .S v => (toInt32 v).map fun n => { d with body := c.directSetState n d.body }
  | .V v => some { d with body := c.directSetValue v d.body }
  | .M v =>
    if v.eq (.num 0) then some { d with manual := false }
    else if v.eq (.num 1) then some { d with manual := true }
    else some d

/-- What happens to a device: commands, and changes by its own inputs (any function). -/
inductive Ev (σ : Type) where
  | prog (p : Prog)
  | oper (o : Oper)
  | io (f : σ → σ)

/-- One event. -/
def Dev.step (c : Cls σ) (d : Dev σ) : Ev σ → Option (Dev σ)
  | .prog p => some (d.prog c p)
  | .oper o => d.oper c o
  | .io f => some { d with body := f d.body }

/-- A history; `none` as soon as something undefined happens. -/
def Dev.run (c : Cls σ) (d : Dev σ) : List (Ev σ) → Option (Dev σ)
  | [] => some d
  | e :: es => (d.step c e).bind fun d => d.run c es

/-! ## Classes that do not follow the common scheme -/

/-- `power_unit::set_cmd` with `ST` (device.cpp lines 862-875) and `circuit_breaker::set_cmd` with `ST` (device.cpp
lines 3116-3131): the operator's command takes the way of the program. -/
def Dev.operST (c : Cls σ) (d : Dev σ) (v : Fl) : Option (Dev σ) :=
  (toInt32 v).map fun n => if n ≠ 0 then d.prog c .on else d.prog c .off

/-- `valve_mix_proof::open_upper_seat` / `open_lower_seat` (valve.cpp lines 896-905), which the control program calls:
directly, without asking for the manual mode.  Same in lines 1213-1222, 1930-1939 and 3068-3077. -/
def Dev.openSeat (c : Cls σ) (d : Dev σ) (n : Int) : Dev σ := { d with body := c.directSetState n d.body }

end Ptusa.Device
