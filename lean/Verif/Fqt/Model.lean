import Verif.Valve.Model

/-!
# Pulse counters

Model of `base_counter` (PAC/common/device/device.cpp lines 1008-1338, device.h lines 1117-1220) as used by `counter`
(device.cpp lines 1342-1377) and `counter_f` (lines 1380-1446): the module counts pulses in 16 bits.  Simplifications: the
emulator is off; values set from outside are whole numbers; the clock shows one time during a call.  `float` sums are
rounded by `Counter.rnd`.  Not modelled: `counter_iolink`, texts of errors, `set_cmd`.
-/
namespace Ptusa.Fqt

open Valve (Tm)

/-- A pair of `value`, `last_read_value`, `is_first_read` (device.h lines 1204-1210). -/
structure Acc where
  val : Nat := 0
  last : Nat := 0
  first : Bool := true
  deriving DecidableEq

/-- `calculate_quantity` (device.cpp lines 1111-1146): the increment and the new values.  `cur` is the reading of 16 bits,
`get_max_raw_value()` is `USHRT_MAX`, `MAX_OVERFLOW` is 300. -/
def Acc.calc (cur : Nat) (a : Acc) : Nat × Acc :=
  if a.first then
    if cur ≠ 0 then (0, { a with last := cur, first := false }) else (0, a)
  else
    let delta :=
      if cur < a.last then
        let delta := 65535 - a.last + cur
        if delta > 300 ∧ cur < delta then cur else delta
      else cur - a.last
    (delta, { a with last := cur, val := if delta > 0 then Counter.rnd (a.val + delta) else a.val })

/-- The fields of `base_counter`; `state` is that of `device`: 1 work, 2 pause, -10 error. -/
structure Fq where
  rel : Acc := {}
  abs : Acc := {}
  t1on : Bool := true
  t1 : Nat := 0
  p1 : Nat := 0
  t2on : Bool := true
  t2 : Nat := 0
  p2 : Nat := 0
  day : Int := 0
  state : Int := 1
  start : BitVec 32 := 0
  prev : Nat := 0
  deriving DecidableEq

/-- What a call sees: the clock, whether some pump is configured and whether one of them works, whether the flow is above
the least one (`!( get_flow() <= get_min_flow() )`), the flow channel of `counter_f` (-12 and -13 are its errors, 0 is
none), `get_pump_dt()`, the reading and the day of the year. -/
structure In where
  now : Tm
  pump : Option Bool := none
  flow : Bool := false
  chan : Int := 0
  dt : Nat := 0
  raw : Nat := 0
  yday : Int := 0

/-- `get_abs_quantity` (device.cpp lines 1153-1156); `none`: the cast is undefined. -/
def Fq.absQuantity (f : Fq) : Option Nat := if f.abs.val < 2 ^ 32 then some f.abs.val else none

/-- `base_counter::get_state` (device.cpp lines 1016-1064): `start_pump_working_time` has 32 bits. -/
def Fq.baseState (i : In) (f : Fq) : Option (Int × Fq) :=
  if (i.pump = some false) ∨ i.flow = false then some (f.state, { f with start := 0 })
  else
    f.absQuantity.map fun q =>
      if f.state = 2 ∨ f.start = 0 then (f.state, { f with start := i.now.truncate 32, prev := q })
      else if q ≠ f.prev then (1, { f with start := i.now.truncate 32, prev := q, state := 1 })
      else if (Time.deltaMs i.now (f.start.zeroExtend 64)).toNat < i.dt then (f.state, f)
      else (-10, { f with state := -10 })

/-- `get_state` of `counter_f` (device.cpp lines 1391-1403), and of `counter` with `chan` 0. -/
def Fq.getState (i : In) (f : Fq) : Option (Int × Fq) := if i.chan ≠ 0 then some (i.chan, f) else f.baseState i

/-- `evaluate_io` (device.cpp lines 1217-1246). -/
def Fq.eval (i : In) (f : Fq) : Option Fq :=
  (f.getState i).map fun (s, f) =>
    let f := if s = 1 then { f with rel := (f.rel.calc i.raw).2 } else f
    let delta := (f.abs.calc i.raw).1
    let f := { f with abs := (f.abs.calc i.raw).2 }
    let f := if f.t1on then { f with t1 := Counter.rnd (f.t1 + delta) } else f
    let f := if f.t2on then { f with t2 := Counter.rnd (f.t2 + delta) } else f
    if f.day ≠ i.yday then { f with p1 := f.t1, t1 := 0, p2 := f.t2, t2 := 0, day := i.yday } else f

/-- `pause` (device.cpp lines 1166-1171): `get_quantity()` changes nothing. -/
def Fq.pause (f : Fq) : Fq := { f with state := 2 }

/-- `start` (device.cpp lines 1173-1186). -/
def Fq.startIt (raw : Nat) (f : Fq) : Fq :=
  if f.state = 2 then { f with state := 1, rel := { f.rel with last := raw }, start := 0 }
  else if f.state < 0 then { f with start := 0, state := 1 }
  else f

/-- `reset` (device.cpp lines 1188-1191). -/
def Fq.reset (f : Fq) : Fq := { f with rel := { f.rel with val := 0 } }

/-- `abs_reset` (device.cpp lines 1193-1196). -/
def Fq.absReset (f : Fq) : Fq := { f with abs := { f.abs with val := 0 } }

/-- Calls on a counter. -/
inductive Ev where
  | eval (i : In)
  | ask (i : In)
  | pause
  | start (raw : Nat)
  | reset
  | absReset
  | daily (n : Bool) (on : Bool)

/-- One call; `daily`: `pause_daily`, `start_daily` (device.cpp lines 1323-1338). -/
def Fq.step (f : Fq) : Ev → Option Fq
  | .eval i => f.eval i
  | .ask i => (f.getState i).map Prod.snd
  | .pause => some f.pause
  | .start raw => some (f.startIt raw)
  | .reset => some f.reset
  | .absReset => some f.absReset
  | .daily false on => some { f with t1on := on }
  | .daily true on => some { f with t2on := on }

/-- Calls in turn. -/
def Fq.run (f : Fq) : List Ev → Option Fq
  | [] => some f
  | e :: es => (f.step e).bind fun f => f.run es

end Ptusa.Fqt
