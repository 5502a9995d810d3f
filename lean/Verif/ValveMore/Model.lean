import Verif.Valve.Model

/-!
# Feedback of valves on terminals, on AS-i and of flushing valves

Model of the remaining valves with feedback (PAC/common/device/valve.cpp): `valve_iol_terminal_DO1_DI1_on` (lines
2359-2387), `valve_iol_terminal_DO1_DI1_off` (2389-2420), `valve_iol_terminal_DO1_DI2` (2656-2695),
`valve_iol_terminal_mixproof_DO3_DI2` (2697-2746), `valve_AS` (2851-3078), `valve_AS_DO1_DI2` (3099-3172) and
`valve_mini_flushing` (3175-3302), with `valve::get_state` (107-285).  Simplifications: the emulator mode is off; the bits
in the images of terminals and gateways are not modelled here but in `BitIo`, so an output is a flag; what is read back
from an output is what was written.
-/
namespace Ptusa.ValveMore
open Valve (Tm toUnsigned passed inTime)

/-- The classes: a flushing valve; terminal valves with an input for open, one for closed, both, and with seats; AS-i
valves with seats and without. -/
inductive Kind where
  | flush | termOn | termOff | termDi2 | termMix | as | asDi2
  deriving DecidableEq

/-- A valve: the outputs (or the member `state` of terminal valves) `a` for open, `b` for the upper and `c` for the lower
seat or the small valve; the inputs `x` for open (or the only input) and `y` for closed; `start_switch_time`,
`start_err_time`. -/
structure Dv where
  a : Bool := false
  b : Bool := false
  c : Bool := false
  x : Bool := false
  y : Bool := false
  start : Tm := 0
  err : Tm := 0
  deriving DecidableEq

/-- The terminal valves. -/
def Kind.term : Kind → Bool
  | .termOn | .termOff | .termDi2 | .termMix => true
  | _ => false

/-- `direct_on` (lines 2303-2322, 2996-3017, 3225-3237). -/
def directOn (k : Kind) (now : Tm) (v : Dv) : Dv :=
  match k with
  | .flush => if v.a = false then { v with start := now, a := true, c := false } else v
  | _ => { v with a := true, b := false, c := false, start := if v.a then v.start else now }

/-- `direct_off` (lines 2324-2341, 2965-2994, 3239-3255). -/
def directOff (k : Kind) (now : Tm) (v : Dv) : Dv :=
  match k with
  | .flush =>
    let v := if v.c then { v with start := now, c := false } else v
    if v.a then { v with start := now, a := false } else v
  | .as | .asDi2 => { v with a := false, b := false, c := false, start := if v.a then now else v.start }
  | _ => { v with a := false, b := false, c := false, start := if v.a || v.b || v.c then now else v.start }

/-- `direct_set_state` (lines 2289-2296, 2435-2500, 3019-3078, 3108-3127, 3191-3223). -/
def directSet (k : Kind) (now : Tm) (n : Int) (v : Dv) : Dv :=
  match k with
  | .flush =>
    if n = 0 ∨ n = 2 then directOff k now v
    else if n = 3 then
      let v := directOff k now v
      if v.c = false then { v with start := now, c := true } else v
    else directOn k now v
  | .termMix =>
    if n = 0 then directOff k now v
    else if n = 2 then { v with a := false, b := true, c := false }
    else if n = 3 then { v with a := false, b := false, c := true }
    else directOn k now v
  | .as =>
    if n = 0 then directOff k now v
    else if n = 2 then
      let v := directOff k now v
      { v with b := true, start := if v.b then v.start else now }
    else if n = 3 then
      let v := directOff k now v
      { v with c := true, start := if v.c then v.start else now }
    else directOn k now v
  | .asDi2 => if n = 2 ∨ n = 3 then v else if n = 0 then directOff k now v else directOn k now v
  | _ => if n ≠ 0 then directOn k now v else directOff k now v

/-- `get_valve_state` (lines 2298-2301, 2851-2867, 3129-3139, 3257-3266). -/
def valveState (k : Kind) (v : Dv) : Int :=
  match k with
  | .flush => if v.a = false ∧ v.c then 3 else if v.a then 1 else 0
  | .asDi2 => if v.a then 1 else 0
  | _ => if v.a then 1 else if v.b then 2 else if v.c then 3 else 0

/-- `get_fb_state` (lines 2364-2382, 2394-2413, 2661-2684, 2704-2731, 2869-2904, 3141-3171, 3268-3289); `cfg` is the
result of `check_config`.  The clock is read once. -/
def fbState (k : Kind) (cfg : Bool) (now : Tm) (pOn : Fl) (v : Dv) : Option (Bool × Dv) :=
  let both := (v.a = false ∧ v.y = true ∧ v.x = false) ∨ (v.a = true ∧ v.x = true ∧ v.y = false)
  let early := (toUnsigned 64 pOn).map fun p => (decide (passed now v.start < p), v)
  match k with
  | .flush => some (if both then (true, v) else (inTime now v.start pOn, v))
  | .as => some (
      if both then (true, v)
      else if v.a = false ∧ v.c = true then (true, v)
      else if v.a = false ∧ v.b = true then (true, v)
      else (inTime now v.start pOn, v))
  | .asDi2 => some (
      if both then (true, { v with err := now })
      else if inTime now v.start pOn then (true, v)
      else (inTime now v.err pOn, v))
  | .termOn =>
    if cfg = false then some (false, v)
    else if valveState k v = (if v.x then 1 else 0) then some (true, { v with start := now }) else early
  | .termOff =>
    if cfg = false then some (false, v)
    else if valveState k v ≠ (if v.x then 1 else 0) then some (true, { v with start := now }) else early
  | .termDi2 =>
    if (valveState k v = 1 ∧ v.x ∧ v.y = false) ∨ (valveState k v = 0 ∧ v.x = false ∧ v.y) then
      some (true, { v with start := now })
    else early
  | .termMix =>
    if (valveState k v = 1 ∧ v.x ∧ v.y = false) ∨ (valveState k v = 0 ∧ v.x = false ∧ v.y) then
      some (true, { v with start := now })
    else if valveState k v = 3 ∨ valveState k v = 2 then some (true, v)
    else early

/-- `valve::get_state` (lines 107-285) with feedback.  The clock is read at `t1` for the feedback and at `t2` after it. -/
def report (k : Kind) (cfg : Bool) (t1 t2 : Tm) (pOn pFb : Fl) (manual : Bool) (v : Dv) : Option (Int × Dv) :=
  let s := valveState k v
  let fbOff := pFb.eq (.num 0)
  if s = 3 then some (if manual then 23 else if fbOff then 33 else 3, v)
  else if s = 2 then some (if manual then 22 else if fbOff then 32 else 2, v)
  else if s = 1 then
    if fbOff then some (if manual then 31 else 11, v)
    else (fbState k cfg t1 pOn v).bind fun r =>
      if r.1 then some (if manual then 21 else 1, r.2)
      else (toUnsigned 64 pOn).map fun p =>
        if passed t2 r.2.start > p then (if manual then -12 else -2, r.2) else (if manual then 42 else 40, r.2)
  else
    if fbOff then some (if manual then 30 else 10, v)
    else (fbState k cfg t1 pOn v).bind fun r =>
      if r.1 then some (if manual then 20 else 0, r.2)
      else (toUnsigned 64 pOn).map fun p =>
        if passed t2 r.2.start > p then (if manual then -13 else -3, r.2) else (if manual then 43 else 41, r.2)

/-- `get_state`: of terminal valves (lines 2271-2287), where `link` is the state of the IO-Link port (0 good, 1 not
connected, 2 an error of the device; bus_coupler_io.h lines 40-45, bus_coupler_io.cpp 608-626), and of the others. -/
def getState (k : Kind) (cfg : Bool) (link : Fin 3) (t1 t2 : Tm) (pOn pFb : Fl) (manual : Bool) (v : Dv) :
    Option (Int × Dv) :=
  if k.term ∧ link ≠ 0 then some (-(link.val : Int), v) else report k cfg t1 t2 pOn pFb manual v

/-- What happens to a valve. -/
inductive Ev where
  | on (now : Tm)
  | off (now : Tm)
  | set (now : Tm) (n : Int)
  | inputs (x y : Bool)
  | ask (now : Tm) (manual : Bool) (link : Fin 3)
  deriving DecidableEq

/-- One event; without configuration a terminal valve ignores commands (lines 2305, 2326, 2437, 2455). -/
def step (k : Kind) (cfg : Bool) (pOn pFb : Fl) (v : Dv) : Ev → Option Dv
  | .on now => some (if k.term ∧ cfg = false then v else directOn k now v)
  | .off now => some (if k.term ∧ cfg = false then v else directOff k now v)
  | .set now n => some (if k.term ∧ cfg = false then v else directSet k now n v)
  | .inputs x y => some { v with x := x, y := y }
  | .ask now m link => (getState k cfg link now now pOn pFb m v).map Prod.snd

/-- A history; `none` as soon as something undefined happens. -/
def run (k : Kind) (cfg : Bool) (pOn pFb : Fl) (v : Dv) : List Ev → Option Dv
  | [] => some v
  | e :: es => (step k cfg pOn pFb v e).bind fun v => run k cfg pOn pFb v es

end Ptusa.ValveMore
