import Verif.Base.Fl

/-!
# Threshold regulator

Model of `threshold_regulator` (PAC/common/device/device.cpp lines 487-583, device.h lines 1518-1561) with a sensor and an
actuator configured.  Commands to the actuator are kept as the last state it was told (`off()` and `set_state( 0 )` are
the same to it).  Sums of floats are exact (see `Fl`).
-/
namespace Ptusa.Thld

/-- `P_is_reverse`, `P_delta`. -/
structure Par where
  reverse : Fl
  delta : Fl

/-- `state`, `out_state`, `set_value`, and the state the actuator was told last. -/
structure Rg where
  on : Bool := false
  out : Bool := false
  sp : Fl := .num 0
  act : Bool := false
  deriving DecidableEq

/-- `direct_on` (lines 536-542). -/
def Rg.directOn (r : Rg) : Rg := if r.on ≠ true then { r with on := true } else r

/-- `direct_off` (lines 505-515). -/
def Rg.directOff (r : Rg) : Rg := if r.on ≠ false then { r with on := false, act := false } else r

/-- `direct_set_state` (lines 517-534). -/
def Rg.directSet (n : Int) (r : Rg) : Rg := if n = 0 then r.directOff else if n = 1 then r.directOn else r

/-- `direct_set_value( val )` (lines 555-588) when the sensor (or the flow of a counter) shows `v`. -/
def Rg.setValue (p : Par) (val v : Fl) (r : Rg) : Rg :=
  let r := { r with sp := val }
  let rev := (Fl.num 0).lt p.reverse
  let r :=
    if r.on = false then { r with out := false, act := false }
    else if (r.sp + p.delta).lt v then { r with out := rev }
    else if v.lt (r.sp - p.delta) then { r with out := !rev }
    else r
  { r with act := r.out }

/-- `get_value` (lines 549-552) and `get_state` (lines 500-503). -/
def Rg.value (r : Rg) : Int := if r.out then 1 else 0
@[inherit_doc Rg.value] def Rg.state (r : Rg) : Int := if r.on then 1 else 0

/-- Calls on the regulator. -/
inductive Ev where
  | on | off
  | set (n : Int)
  | value (val v : Fl)
  deriving DecidableEq

/-- One call. -/
def Rg.step (p : Par) (r : Rg) : Ev → Rg
  | .on => r.directOn
  | .off => r.directOff
  | .set n => r.directSet n
  | .value val v => r.setValue p val v

/-- Calls in turn. -/
def Rg.run (p : Par) (r : Rg) (es : List Ev) : Rg := es.foldl (Rg.step p) r

end Ptusa.Thld
