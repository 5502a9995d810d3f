import Verif.Base.Fl

/-!
# PID regulator: `PAC/common/PID.{h,cpp}`
-/
namespace Ptusa.Regulator

/-- `PID::STATE` (`PID.h:121-127`). -/
inductive State where
  | off
  | on
  | stopping
  deriving DecidableEq, Repr

/-- The parameters (`PID.h:24-49`); `P_is_reverse` only selects the sign passed to `eval` and is
left out. -/
structure Params where
  k : Fl
  ti : Fl
  td : Fl
  dt : Fl
  max : Fl
  min : Fl
  accelerationTime : Fl
  isManual : Fl
  uManual : Fl
  k2 : Fl
  ti2 : Fl
  td2 : Fl
  outMax : Fl
  outMin : Fl
  isZeroStart : Fl
  deriving DecidableEq, Repr

/-- A command sent to the actuator. -/
inductive Act where
  | off
  | on
  | set (v : Fl)
  deriving DecidableEq, Repr

/-- The regulator.  The fields `q0`, `q1`, `q2`, `dUk` are recomputed before every use and left
out.  `devManual` is the manual mode of the device (`device::is_manual_mode`); `acts` are the
commands sent to the actuator so far, the last one first. -/
structure Pid where
  par : Params
  uk1 : Fl
  ek1 : Fl
  ek2 : Fl
  uk : Fl
  startTime : Nat
  lastTime : Nat
  prevManual : Bool
  st : State
  out : Fl
  set : Fl
  usedPar : Nat
  startValue : Fl
  devManual : Bool
  acts : List Act
  deriving DecidableEq, Repr

/-- What the program sees from outside while it calls the regulator: the time, the conversion
of a parameter to `unsigned int` (undefined for negative numbers in C++, hence arbitrary), the
measured value and the direction of action. -/
structure Env where
  now : Nat
  toUInt : Fl → Nat
  cur : Fl
  sign : Fl

/-- A float used as a condition: true unless it equals zero (`nan` counts as true). -/
def truthy (a : Fl) : Bool := !(a.eq 0)

/-- The rest value (`PID.cpp:67-71`, `359-361`). -/
def Params.rest (p : Params) : Fl := if truthy p.isZeroStart then 0 else 100

/-- `PID::reset` (`PID.cpp:353-367`). -/
def Pid.reset (p : Pid) (now : Nat) : Pid :=
  { p with
    uk1 := 0, ek1 := 0, ek2 := 0
    startValue := p.par.rest
    uk := p.par.rest
    out := p.par.rest
    par := { p.par with isManual := 0 }
    startTime := now }

/-- Clamp to 0..100 (`PID.cpp:134-135`). -/
def clamp100 (u : Fl) : Fl :=
  let a := if Fl.lt 100 u then 100 else u
  if Fl.lt a 0 then 0 else a

/-- The control error (`PID.cpp:95-109`); the span is never zero. -/
def Pid.error (p : Pid) (e : Env) : Fl :=
  let dmax := if p.par.max.eq p.par.min then p.par.min + 1 else p.par.max
  e.sign * 100 * (p.set - e.cur) / (dmax - p.par.min)

/-- `dt` in seconds with the substitute for zero (`PID.cpp:95,123`). -/
def Pid.dtSec (p : Pid) : Fl :=
  let dt := p.par.dt / 1000
  if dt.eq 0 then 1 else dt

/-- `TI` with the substitute for zero (`PID.cpp:74-82,124`). -/
def Pid.tiSec (p : Pid) : Fl :=
  let ti := if p.usedPar = 2 then p.par.ti2 else p.par.ti
  if ti.eq 0 then 1 / 10000 else ti

/-- The recalculation of the output (`PID.cpp:126-162`), when the calculation interval has
passed. -/
def Pid.recalc (p : Pid) (e : Env) : Pid :=
  let dt := p.dtSec
  let ti := p.tiSec
  let k := if p.usedPar = 2 then p.par.k2 else p.par.k
  let td := if p.usedPar = 2 then p.par.td2 else p.par.td
  let ek := p.error e
  let q0 := k * (1 + td / dt)
  let q1 := k * (-1 - 2 * td / dt + 2 * dt / ti)
  let q2 := k * td / dt
  let u := clamp100 (p.uk1 + (q0 * ek + q1 * p.ek1 + q2 * p.ek2))
  let delta := e.now - p.startTime
  let acc := 1000 * e.toUInt p.par.accelerationTime
  let u' :=
    if delta < acc then
      let r := (100 : Fl) * .num delta / .num acc
      if truthy p.par.isZeroStart then
        if Fl.lt (p.startValue + r) u then p.startValue + r else u
      else
        if Fl.lt u (p.startValue - r) then p.startValue - r else u
    else u
  { p with uk1 := u, ek2 := p.ek1, ek1 := ek, uk := u', lastTime := e.now }

/-- Entering the manual mode of the regulator (`PID.cpp:165-170`). -/
def Pid.enterManual (p : Pid) : Pid :=
  if truthy p.par.isManual && !p.prevManual then
    { p with prevManual := true, par := { p.par with uManual := p.out } }
  else p

/-- The output limits (`PID.cpp:206-213`). -/
def limit (lo hi u : Fl) : Fl :=
  let a := if Fl.lt u lo then lo else u
  if Fl.lt hi a then hi else a

/-- `PID::eval` (`PID.cpp:65-223`): the new state and the returned value. -/
def Pid.eval (p : Pid) (e : Env) : Pid × Fl :=
  if p.st = .off then (p, p.par.rest)
  else
    let p1 := if Fl.lt (p.dtSec * 1000) (.num (e.now - p.lastTime : Nat)) then p.recalc e else p
    let p2 := p1.enterManual
    if p2.par.isManual.eq 0 && p2.prevManual then
      let p3 := ({ p2 with prevManual := false }).reset e.now
      let v := p3.par.uManual
      ({ p3 with startTime := e.now, startValue := v, out := v }, v)
    else
      let u := limit p2.par.outMin p2.par.outMax p2.uk
      let out := if p2.par.isManual.eq 1 then p2.par.uManual else u
      ({ p2 with uk := u, out := out }, out)

/-- `PID::direct_on` (`PID.cpp:225-238`). -/
def Pid.directOn (p : Pid) (now : Nat) : Pid :=
  match p.st with
  | .on => p
  | .off => { ({ p with startTime := now, lastTime := now } : Pid).reset now with st := .on }
  | .stopping => { p with st := .on }

/-- `PID::direct_off` (`PID.cpp:258-273`); the regulator has an actuator. -/
def Pid.directOff (p : Pid) (now : Nat) : Pid :=
  match p.st with
  | .stopping => { p.reset now with st := .off, acts := .off :: p.acts }
  | .on => { p with st := .stopping }
  | .off => p

/-- `PID::on` (`PID.cpp:59-63`) with `device::on` (`device/base.cpp`): the parameter is written
in any mode. -/
def Pid.progOn (p : Pid) (nonZeroStart : Bool) (now : Nat) : Pid :=
  let p1 := { p with par := { p.par with isZeroStart := if nonZeroStart then 0 else 1 } }
  if p1.devManual then p1 else p1.directOn now

/-- `device::off` (`device/base.cpp:232-238`). -/
def Pid.progOff (p : Pid) (now : Nat) : Pid :=
  if p.devManual then p else p.directOff now

/-- `PID::evaluate_io` (`PID.cpp:498-504`). -/
def Pid.evaluateIo (p : Pid) (now : Nat) : Pid :=
  if p.st = .stopping then p.progOff now else p

/-- `PID::direct_set_value` (`PID.cpp:275-301`); the regulator has a sensor and an actuator. -/
def Pid.directSetValue (p : Pid) (v : Fl) (e : Env) : Pid :=
  let r := ({ p with set := v }).eval e
  let p1 : Pid := { r.1 with out := r.2 }
  if p1.st = .off then { p1 with acts := .off :: p1.acts }
  else { p1 with acts := .set r.2 :: .on :: p1.acts }

/-- Events: program commands, operator commands (`device::set_cmd`), parameter changes. -/
inductive Ev where
  | on (nonZeroStart : Bool) (now : Nat)
  | off (now : Nat)
  | io (now : Nat)
  | value (v : Fl) (e : Env)
  | opState (n : Int) (now : Nat)
  | opValue (v : Fl) (e : Env)
  | opManual (b : Bool)
  | param (f : Params → Params)

/-- One event.  `set_value` of the program is ignored in manual mode (`device/base.cpp`);
`opState` is `PID::direct_set_state` (`PID.cpp:240-256`). -/
def Pid.step (p : Pid) : Ev → Pid
  | .on nz now => p.progOn nz now
  | .off now => p.progOff now
  | .io now => p.evaluateIo now
  | .value v e => if p.devManual then p else p.directSetValue v e
  | .opState n now => if n = 0 then p.directOff now else if n = 1 then p.directOn now else p
  | .opValue v e => p.directSetValue v e
  | .opManual b => { p with devManual := b }
  | .param f => { p with par := f p.par }

/-- A history. -/
def Pid.run (p : Pid) (es : List Ev) : Pid := es.foldl Pid.step p

/-- A new regulator (`PID.cpp:10-54`) with the given parameters. -/
def Pid.init (par : Params) (now : Nat) : Pid :=
  ⟨par, 0, 0, 0, 0, now, now, false, .off, 0, 0, 1, 0, false, []⟩

/-- Limits stored by the operator through `PID::set_cmd` of an old-style regulator
(`PID.cpp:394-416`); `isMax` selects `P_out_max`. -/
def Params.oldSetLimit (p : Params) (isMax : Bool) (v : Fl) : Params :=
  if isMax then
    let v := if Fl.lt 100 v then 100 else v
    if Fl.lt v p.outMin then p else { p with outMax := v }
  else
    let v := if Fl.lt v 0 then 0 else v
    if Fl.lt p.outMax v then p else { p with outMin := v }

/-- Limits stored by `PID::init_param` (`PID.cpp:321-337`). -/
def Params.initLimit (p : Params) (isMax : Bool) (v : Fl) : Params :=
  if isMax then { p with outMax := if Fl.lt 100 v then 100 else v }
  else { p with outMin := if Fl.lt v 0 then 0 else v }

/-- Limits stored by `device::set_cmd` of a new-style regulator (`PID.cpp:418-421`,
`device/base.cpp:343-344`): any value. -/
def Params.newSetLimit (p : Params) (isMax : Bool) (v : Fl) : Params :=
  if isMax then { p with outMax := v } else { p with outMin := v }

end Ptusa.Regulator
