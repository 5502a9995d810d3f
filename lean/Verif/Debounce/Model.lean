import Verif.Valve.Model

/-!
# Digital inputs with a time filter

Model of `DI1::get_state` (PAC/common/device/device.h lines 771-796, device.cpp lines 1589-1629), the base of level, flow
and position sensors, of buttons and of plain input signals, and of the same filter in `level_s_iolink::get_state`
(device.cpp lines 2673-2703) while the IO-Link channel is good.  Simplification: the emulator is off; the input is 0 or 1;
the clock shows one time during a call.
-/
namespace Ptusa.Debounce

open Valve (Tm toUnsigned)

/-- `current_state` and `time` (device.h lines 785-786, 986-987): `time` has 32 bits, the clock 64. -/
structure Di where
  cur : Bool
  time : BitVec 32 := 0
  deriving DecidableEq

/-- A new `DI1`: `current_state_init_val` (1 for the upper level sensor `DST_LS_MAX`, device.cpp 2570-2574). -/
def Di.init (start : Bool) : Di := { cur := start }

/-- A new `level_s_iolink` (device.h line 987): `time` is the time of its creation. -/
def Di.initIolink (start : Bool) (now : Tm) : Di := { cur := start, time := now.truncate 32 }

/-- `get_state()` when the clock shows `now` and the input is `inp`; `pDt` is the parameter `P_DT`.  `none`: the cast of
`P_DT` to `u_int_4` is undefined. -/
def Di.poll (pDt : Fl) (d : Di) (p : Tm × Bool) : Option Di :=
  (toUnsigned 32 pDt).map fun dt =>
    if dt > 0 then
      if d.cur ≠ p.2 then
        if (Time.deltaMs p.1 (d.time.zeroExtend 64)).toNat > dt then { cur := p.2, time := p.1.truncate 32 } else d
      else { d with time := p.1.truncate 32 }
    else { d with cur := p.2 }

/-- Calls of `get_state()` in turn. -/
def Di.run (pDt : Fl) (d : Di) : List (Tm × Bool) → Option Di
  | [] => some d
  | p :: ps => (d.poll pDt p).bind fun d => d.run pDt ps

/-- `level_s_iolink::get_state` (device.cpp 2673-2703): on an IO-Link error (`ok = false`) the upper level sensor
(`max`) shows 1, others 0, and the filter does not move. -/
def Di.pollIolink (pDt : Fl) (max ok : Bool) (d : Di) (p : Tm × Bool) : Option (Bool × Di) :=
  if ok then (d.poll pDt p).map fun d => (d.cur, d) else some (max, d)

/-- Calls of `level_s_iolink::get_state()` in turn, each with the state of its channel; the states shown. -/
def Di.runIolink (pDt : Fl) (max : Bool) (d : Di) : List (Bool × Tm × Bool) → Option (List Bool × Di)
  | [] => some ([], d)
  | p :: ps =>
    (d.pollIolink pDt max p.1 p.2).bind fun r => (r.2.runIolink pDt max ps).map fun q => (r.1 :: q.1, q.2)

/-- `level_s::is_active` (device.cpp 2555-2568) of the shown state: the upper level sensor is active at 0. -/
def levelActive (max state : Bool) : Bool := if max then !state else state

end Ptusa.Debounce
