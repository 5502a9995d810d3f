import Verif.Time.Model

/-!
# Closing valves with a delay

Model of the delayed switching off of valves (PAC/common/device/valve.cpp lines 324-427) for a whole set of valves that
share the queue `to_switch_off`, and of `valve_bottom_mix_proof` (lines 1050-1190), which overrides a part of it.
Simplifications: the emulator mode is off; every discrete channel a class uses is configured, so that `get_DO` returns
what `set_DO` has written last (bus_coupler_io.cpp lines 44-92).
-/
namespace Ptusa.ValveOff

/-- The millisecond clock. -/
abbrev Tm := BitVec 64

/-- The overridable functions of a class of valves on its own state `σ`.  `seat`: `get_valve_state` returns one of the
two seat states.  `tick`: what `valve::evaluate` does first, `valve_DO2_DI2_bistable::evaluate` (lines 332-342).
`finished`: an override of `is_switching_off_finished` (called with the parameter `P_V_BOTTOM_OFF_DELAY_TIME`). -/
structure Cls (σ : Type) where
  directOn : Tm → σ → σ
  directOff : Tm → σ → σ
  directSet : Tm → Int → σ → σ
  seat : σ → Bool
  tick : Tm → σ → σ := fun _ s => s
  finished : Option (Tm → BitVec 32 → σ → Bool × σ) := none

/-- A valve (valve.h lines 160-180) and its manual mode. -/
structure V (σ : Type) where
  body : σ
  manual : Bool := false
  wasOnAuto : Bool := false
  switching : Bool := false
  startOff : Tm := 0
  deriving DecidableEq

/-- All the valves, by number, and the vector `to_switch_off` (valve.cpp line 9). -/
structure Fleet (σ : Type) where
  vs : Nat → V σ
  queue : List Nat := []

variable {σ : Type}

/-- Valve `i` replaced. -/
def put (vs : Nat → V σ) (i : Nat) (v : V σ) : Nat → V σ := fun j => if j = i then v else vs j

/-- `valve::on` (lines 416-421). -/
def V.on (c : Cls σ) (now : Tm) (v : V σ) : V σ :=
  { v with wasOnAuto := true, switching := false, body := if v.manual then v.body else c.directOn now v.body }

/-- `valve::off` (lines 395-414). -/
def Fleet.off (cls : Nat → Cls σ) (f : Fleet σ) (now : Tm) (i : Nat) : Fleet σ :=
  let v := f.vs i
  if !v.wasOnAuto || (cls i).seat v.body then
    if v.manual then f else { f with vs := put f.vs i { v with body := (cls i).directOff now v.body } }
  else if !v.switching then
    { vs := put f.vs i { v with switching := true, startOff := now }, queue := f.queue ++ [i] }
  else f

/-- `i_DO_device::instant_off` (device.cpp lines 325-331). -/
def V.instantOff (c : Cls σ) (now : Tm) (v : V σ) : V σ :=
  if v.manual then v else { v with body := c.directOff now v.body }

/-- `i_DO_device::set_state` (device.cpp lines 333-339). -/
def V.setState (c : Cls σ) (now : Tm) (n : Int) (v : V σ) : V σ :=
  if v.manual then v else { v with body := c.directSet now n v.body }

/-- The first loop of `valve::evaluate` for one valve (lines 351-364). -/
def V.expire (c : Cls σ) (now : Tm) (delay : BitVec 32) (v : V σ) : V σ :=
  if v.switching && decide ((Time.deltaMs now v.startOff).toNat > delay.toNat) then
    { v with body := if v.manual then v.body else c.directOff now v.body, switching := false, wasOnAuto := false }
  else v

/-- `is_switching_off_finished`: of `valve` (lines 324-327) or the override. -/
def V.finished (c : Cls σ) (now : Tm) (bdelay : BitVec 32) (v : V σ) : Bool × V σ :=
  match c.finished with
  | none => (!v.switching, v)
  | some g => let r := g now bdelay v.body; (r.1, { v with body := r.2 })

/-- `remove_if` over the queue (lines 366-370). -/
def sweep (cls : Nat → Cls σ) (now : Tm) (bdelay : BitVec 32) : List Nat → (Nat → V σ) → List Nat × (Nat → V σ)
  | [], vs => ([], vs)
  | i :: q, vs =>
    let r := (vs i).finished (cls i) now bdelay
    let s := sweep cls now bdelay q (put vs i r.2)
    (if r.1 then s.1 else i :: s.1, s.2)

/-- `valve::evaluate` (lines 330-371). -/
def Fleet.evaluate (cls : Nat → Cls σ) (f : Fleet σ) (now : Tm) (delay bdelay : BitVec 32) : Fleet σ :=
  let vs := fun i => { f.vs i with body := (cls i).tick now (f.vs i).body }
  let vs := f.queue.foldl (fun vs i => put vs i ((vs i).expire (cls i) now delay)) vs
  let r := sweep cls now bdelay f.queue vs
  { vs := r.2, queue := r.1 }

/-- What can happen: commands of the program to valve `i`, commands of the operator (`oper`: `direct_set_state` by the
command `S`, base.cpp lines 321-353; `manual`), inputs that change the state of the valve (`io`), and the evaluation in
each cycle with the delays configured at that time. -/
inductive Ev (σ : Type) where
  | on (i : Nat) (now : Tm)
  | off (i : Nat) (now : Tm)
  | instantOff (i : Nat) (now : Tm)
  | setState (i : Nat) (now : Tm) (n : Int)
  | oper (i : Nat) (now : Tm) (n : Int)
  | manual (i : Nat) (m : Bool)
  | io (i : Nat) (g : σ → σ)
  | evaluate (now : Tm) (delay bdelay : BitVec 32)

/-- One event. -/
def Fleet.step (cls : Nat → Cls σ) (f : Fleet σ) : Ev σ → Fleet σ
  | .on i now => { f with vs := put f.vs i ((f.vs i).on (cls i) now) }
  | .off i now => f.off cls now i
  | .instantOff i now => { f with vs := put f.vs i ((f.vs i).instantOff (cls i) now) }
  | .setState i now n => { f with vs := put f.vs i ((f.vs i).setState (cls i) now n) }
  | .oper i now n => { f with vs := put f.vs i { f.vs i with body := (cls i).directSet now n (f.vs i).body } }
  | .manual i m => { f with vs := put f.vs i { f.vs i with manual := m } }
  | .io i g => { f with vs := put f.vs i { f.vs i with body := g (f.vs i).body } }
  | .evaluate now delay bdelay => f.evaluate cls now delay bdelay

/-- A history. -/
def Fleet.run (cls : Nat → Cls σ) (f : Fleet σ) (h : List (Ev σ)) : Fleet σ := h.foldl (fun f e => f.step cls e) f

/-- The valves after the start of the program: in the state `b`. -/
def start (b : Nat → σ) : Fleet σ := { vs := fun i => { body := b i } }

/-! ## Classes -/

/-- A valve with one output (`valve_DO1`, device.cpp lines 2202-2235); `state` is the field of `device`. -/
structure Simple where
  o : Bool := false
  state : Int := 0
  deriving DecidableEq

/-- `valve_DO1`: `direct_on/direct_off` (device.cpp lines 2206-2218); `direct_set_state` is not overridden and is that
of `device` (base.cpp lines 222-225), which does not touch the output. -/
def simple : Cls Simple where
  directOn _ s := { s with o := true }
  directOff _ s := { s with o := false }
  directSet _ n s := { s with state := n }
  seat _ := false

/-- A mix-proof valve (`valve_mix_proof`): main, upper seat and lower seat outputs. -/
structure Mix where
  main : Bool := false
  upper : Bool := false
  lower : Bool := false
  deriving DecidableEq

/-- `valve_mix_proof` (valve.cpp lines 891-1003), without `start_switch_time`. -/
def mix : Cls Mix where
  directOn _ _ := { main := true }
  directOff _ _ := {}
  directSet _ n _ := if n = 0 then {} else if n = 2 then { upper := true } else if n = 3 then { lower := true }
    else { main := true }
  seat s := !s.main && (s.upper || s.lower)

/-- State of `valve_bottom_mix_proof`: main output, micro valve output, lower seat output, `is_closing_mini`,
its own `start_off_time` and `start_switch_time` (valve.h lines 549-571). -/
structure Bottom where
  main : Bool := false
  mini : Bool := false
  lower : Bool := false
  closing : Bool := false
  startOff : Tm := 0
  startSwitch : Tm := 0
  deriving DecidableEq

/-- `valve_bottom_mix_proof::direct_on` (lines 1133-1146). -/
def Bottom.directOn (now : Tm) (b : Bottom) : Bottom :=
  let b := { b with lower := false }
  if !b.main then { b with startSwitch := now, main := true, mini := true } else b

/-- `valve_bottom_mix_proof::get_valve_state` (lines 1175-1186) is the lower seat. -/
def Bottom.isLower (b : Bottom) : Bool := !b.main && !b.mini && b.lower

/-- `valve_bottom_mix_proof::direct_off` (lines 1148-1173). -/
def Bottom.directOff (now : Tm) (b : Bottom) : Bottom :=
  let b := if b.isLower then { b with startSwitch := now, lower := false } else b
  let b := if b.main then { b with startSwitch := now, startOff := now, main := false, closing := true } else b
  if b.mini && !b.closing then { b with startSwitch := now, mini := false } else b

/-- `valve_bottom_mix_proof::direct_set_state` (lines 1066-1106). -/
def Bottom.directSet (now : Tm) (n : Int) (b : Bottom) : Bottom :=
  if n = 0 then b.directOff now
  else if n = 2 then
    let b := { b.directOff now with closing := false }
    if !b.mini then { b with startSwitch := now, mini := true } else b
  else if n = 3 then
    let b := b.directOff now
    if !b.lower then { b with startSwitch := now, lower := true } else b
  else b.directOn now

/-- `valve_bottom_mix_proof::is_switching_off_finished` (lines 1108-1131). -/
def Bottom.finished (now : Tm) (bdelay : BitVec 32) (b : Bottom) : Bool × Bottom :=
  if !b.closing then (true, b)
  else if (Time.deltaMs now b.startOff).toNat > bdelay.toNat then
    (true, ({ b with closing := false } : Bottom).directOff now)
  else (false, b)

/-- `valve_bottom_mix_proof`. -/
def bottom : Cls Bottom where
  directOn := Bottom.directOn
  directOff := Bottom.directOff
  directSet := Bottom.directSet
  seat b := !b.main && (b.mini || b.lower)
  finished := some Bottom.finished

end Ptusa.ValveOff
