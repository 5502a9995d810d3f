/-!
# Regulators in a chain

Model of the way a PID regulator uses its actuator, which may itself be a regulator: `PID::set_string_property` (PAC/common/PID.cpp lines
425-450), `direct_set_value` (lines 275-301), `direct_on` (lines 225-238), `direct_off` (lines 258-273), with `device::on`, `off`, `set_value`
(PAC/common/device/base.cpp), which do nothing in manual mode.

The functions call each other, so the model counts the depth of calls: `none` means that the depth given is not enough.  Simplifications:
the value a regulator computes (`PID::eval`, component `Pid`) is an arbitrary function of its number and the set value; the other members of
a regulator are left out; a device that is not a regulator keeps the state and the value it is given.
-/
namespace Ptusa.PidLink

/-- `PID::STATE`; other devices are `off` or `on`. -/
inductive State
  | off
  | on
  | stopping
  deriving DecidableEq

/-- A device: whether it is a regulator, has a sensor, its actuator, manual mode, state, set value. -/
structure Node (V : Type) where
  reg : Bool
  sensor : Bool
  act : Option Nat
  manual : Bool
  st : State
  value : V

/-- The devices of a project. -/
abbrev Net (V : Type) := Nat → Node V

/-- Change of one device. -/
def upd {V : Type} (net : Net V) (a : Nat) (n : Node V) : Net V := fun x => if x = a then n else net x

/-- `set_string_property( "OUT_VALUE", name of b )` of the regulator `a` (PID.cpp lines 436-443). -/
def link {V : Type} (net : Net V) (a b : Nat) : Net V := upd net a { net a with act := if a = b then none else some b }

/-- `device::on` (base.cpp) with `PID::direct_on` (PID.cpp lines 225-238). -/
def on {V : Type} (net : Net V) (a : Nat) : Net V := if (net a).manual then net else upd net a { net a with st := .on }

/-- `device::off` (base.cpp lines 232-238) with `PID::direct_off` (PID.cpp lines 258-273). -/
def off {V : Type} : Nat → Net V → Nat → Option (Net V)
  | 0, _, _ => none
  | k + 1, net, a =>
    if (net a).manual then some net
    else if (net a).reg = false then some (upd net a { net a with st := .off })
    else
      match (net a).st with
      | .off => some net
      | .on => some (upd net a { net a with st := .stopping })
      | .stopping =>
        match (net a).act with
        | none => some (upd net a { net a with st := .off })
        | some b => off k (upd net a { net a with st := .off }) b

/-- `device::set_value` (base.cpp) with `PID::direct_set_value` (PID.cpp lines 275-301). -/
def setValue {V : Type} (out : Nat → V → V) : Nat → Net V → Nat → V → Option (Net V)
  | 0, _, _, _ => none
  | k + 1, net, a, v =>
    if (net a).manual then some net
    else if (net a).reg = false ∨ (net a).sensor = false then some (upd net a { net a with value := v })
    else
      match (net a).act with
      | none => some (upd net a { net a with value := v })
      | some b =>
        if (net a).st = .off then off k (upd net a { net a with value := v }) b
        else setValue out k (on (upd net a { net a with value := v }) b) b (out a v)

end Ptusa.PidLink
