import Verif.Base.Fl
import Verif.Time.Model
import Verif.Counter.Model

/-!
# Valves with discrete channels and with IO-Link

Model of the classes of valves in PAC/common/device/valve.cpp: `valve_DO1` (device.cpp lines 2202-2235), `valve_DO2`
(lines 16-57), `valve_DO1_DI1_off` (430-498), `valve_DO1_DI1_on` (501-569), `valve_DO1_DI2` (572-643), `valve_DO2_DI2`
(646-719), `valve_DO2_DI2_bistable` (722-890), `valve_mix_proof` (893-1037), the state `valve::get_state` (107-285), and
`valve_iolink_mix_proof` (1225-1515).  Simplifications: the emulator mode is off; every channel a class uses is
configured, so that `get_DO` returns what `set_DO` has written last; inputs and outputs are 0 or 1.
-/
namespace Ptusa.Valve

/-- The millisecond clock. -/
abbrev Tm := BitVec 64

/-- The classes. -/
inductive Kind where
  | do1 | do2 | di1Off | di1On | do1di2 | do2di2 | bistable | mix
  deriving DecidableEq

/-- State of a valve: outputs `a`, `b`, `c`, inputs `x`, `y`, `start_switch_time`, the flags of bistable valves and the
field `state` of `device`.

Outputs: `do1`, `di1Off`, `di1On`, `do1di2`: `a` is the only one.  `do2`, `do2di2`: `a` is number 1, `b` number 2.
`bistable`: `a` opens, `b` closes.  `mix`: `a` main, `b` upper seat, `c` lower seat.

Inputs: `di1Off`, `di1On`: `x` is the only one.  `do1di2`, `do2di2`: `x` is number 1, `y` number 2.  `bistable`, `mix`:
`x` opened, `y` closed. -/
structure Dv where
  a : Bool := false
  b : Bool := false
  c : Bool := false
  x : Bool := false
  y : Bool := false
  start : Tm := 0
  stopped : Bool := false
  opening : Bool := false
  closing : Bool := false
  state : Int := 0
  deriving DecidableEq

/-- `direct_on` of the classes: device.cpp 2206-2211; valve.cpp 43-49, 435-445, 506-516, 577-587, 651-662, 759-774,
955-968. -/
def directOn (k : Kind) (now : Tm) (v : Dv) : Dv :=
  match k with
  | .do1 => { v with a := true }
  | .do2 => { v with a := false, b := true }
  | .di1Off | .di1On | .do1di2 => if v.a = false then { v with start := now, a := true } else v
  | .do2di2 => if v.a = false then { v with start := now, a := true, b := false } else v
  | .bistable =>
    if v.x = false ∧ v.a = false then
      { v with start := now, a := true, b := false, opening := true, closing := false }
    else v
  | .mix =>
    let v := { v with b := false, c := false }
    if v.a = false then { v with start := now, a := true } else v

/-- `get_valve_state` of the classes as a number (valve.h lines 109-118): device.cpp 2220-2228; valve.cpp 22-41, 459-465,
530-536, 601-607, 677-683, 792-811, 988-998. -/
def valveState (k : Kind) (v : Dv) : Int :=
  match k with
  | .do1 | .di1Off | .di1On | .do1di2 => if v.a then 1 else 0
  | .do2 => if v.a = v.b then -1 else if v.b then 1 else 0
  | .do2di2 => if v.b then 1 else 0
  | .bistable =>
    if v.x then 1 else if v.y then 0 else if v.a then 1 else if v.b then 0 else if v.stopped then 5 else 0
  | .mix => if v.a = false ∧ v.b = true then 2 else if v.a = false ∧ v.c = true then 3 else if v.a then 1 else 0

/-- `direct_off` of the classes: device.cpp 2213-2218; valve.cpp 51-57, 447-457, 518-528, 589-599, 664-675, 776-790,
970-986. -/
def directOff (k : Kind) (now : Tm) (v : Dv) : Dv :=
  match k with
  | .do1 => { v with a := false }
  | .do2 => { v with a := true, b := false }
  | .di1Off | .di1On | .do1di2 => if v.a then { v with start := now, a := false } else v
  | .do2di2 => if v.b = false then { v with start := now, a := false, b := true } else v
  | .bistable =>
    if v.y = false ∧ v.b = false then
      { v with start := now, a := false, b := true, opening := false, closing := true }
    else v
  | .mix =>
    let wasSeat := valveState .mix v = 3 ∨ valveState .mix v = 2
    let v := { v with b := false, c := false }
    if v.a = true ∨ wasSeat then { v with start := now, a := false } else v

/-- `direct_set_state`: of `device` (base.cpp lines 222-225) where it is not overridden; of bistable valves (valve.cpp
855-890) and mix-proof valves (908-953). -/
def directSet (k : Kind) (now : Tm) (n : Int) (v : Dv) : Dv :=
  match k with
  | .bistable =>
    if n = 5 then
      let v := { v with opening := false, closing := false }
      if v.x ∨ v.y then v else { v with stopped := true, a := false, b := false }
    else { v with stopped := false, state := n }
  | .mix =>
    if n = 0 then directOff .mix now v
    else if n = 2 then
      let v := directOff .mix now v
      if v.b = false then { v with start := now, b := true } else v
    else if n = 3 then
      let v := directOff .mix now v
      if v.c = false then { v with start := now, c := true } else v
    else directOn .mix now v
  | _ => { v with state := n }

/-- Conversion of a `float` to `unsigned int` or `unsigned long` (`w` bits); `none` when it does not fit. -/
def toUnsigned (w : Nat) : Fl → Option Nat
  | .nan => none
  | .num q =>
    let t := Int.tdiv q.num q.den
    if 0 ≤ t ∧ t < 2 ^ w then some t.toNat else none

/-- `get_delta_millisec( start_switch_time )`. -/
def passed (now start : Tm) : Nat := (Time.deltaMs now start).toNat

/-- `get_delta_millisec( start_switch_time ) < get_par( P_ON_TIME, 0 )`: the milliseconds become a `float`. -/
def inTime (now start : Tm) (pOn : Fl) : Bool := (Fl.num (Counter.rnd (passed now start))).lt pOn

/-- `valve_DO2_DI2_bistable::evaluate` (lines 731-757). -/
def tick (k : Kind) (now : Tm) (pOn : Fl) (v : Dv) : Option Dv :=
  match k with
  | .bistable => (toUnsigned 32 pOn).map fun t =>
      let late := decide (passed now v.start > t)
      let v := if v.a ∧ (v.x ∨ late) then { v with a := false } else v
      if v.b ∧ (v.y ∨ late) then { v with b := false } else v
  | _ => some v

/-- `get_fb_state` of the classes: device.cpp 2230-2233; valve.cpp 28-31, 467-486, 538-557, 609-629, 685-705, 813-839,
1000-1023. -/
def fbState (k : Kind) (now : Tm) (pOn : Fl) (v : Dv) : Option (Bool × Dv) :=
  match k with
  | .do1 | .do2 => some (true, v)
  | .di1Off => some (if v.a ≠ v.x then (true, { v with start := now }) else (inTime now v.start pOn, v))
  | .di1On => some (if v.a = v.x then (true, { v with start := now }) else (inTime now v.start pOn, v))
  | .do1di2 => some (
      if (v.a = false ∧ v.y = true ∧ v.x = false) ∨ (v.a = true ∧ v.x = true ∧ v.y = false) then (true, v)
      else (inTime now v.start pOn, v))
  | .do2di2 => some (if v.b = v.y ∧ v.a = v.x then (true, v) else (inTime now v.start pOn, v))
  | .mix => some (
      if (v.a = false ∧ v.y = true ∧ v.x = false) ∨ (v.a = true ∧ v.x = true ∧ v.y = false) then (true, v)
      else if v.a = false ∧ v.c = true then (true, v)
      else if v.a = false ∧ v.b = true then (true, v)
      else (inTime now v.start pOn, v))
  | .bistable =>
    if v.stopped then some (true, v)
    else (toUnsigned 32 pOn).map fun t =>
      let dt := passed now v.start % 2 ^ 32
      if v.x ∧ v.y then (false, v)
      else if v.opening ∧ dt > t ∧ v.y then (false, v)
      else if v.closing ∧ dt > t ∧ v.x then (false, v)
      else if v.x ∨ v.y then (true, v)
      else if dt < t then (true, v)
      else (false, v)

/-- Does the class have feedback: `is_on_fb || is_off_fb` of the constructors. -/
def hasFb : Kind → Bool
  | .do1 | .do2 => false
  | _ => true

/-- `valve::get_state` (lines 107-285) and `valve_DO2::get_state` (lines 33-41).  The clock is read at `t1` for the
feedback and at `t2` after it. -/
def exState (k : Kind) (t1 t2 : Tm) (pOn pFb : Fl) (manual : Bool) (v : Dv) : Option (Int × Dv) :=
  let s := valveState k v
  let fbOff := pFb.eq (.num 0)
  if k = .do2 then some (s, v)
  else if s = 3 then some (if manual then 23 else if hasFb k && fbOff then 33 else 3, v)
  else if s = 2 then some (if manual then 22 else if hasFb k && fbOff then 32 else 2, v)
  else if s = 1 then
    if hasFb k then
      if fbOff then some (if manual then 31 else 11, v)
      else (fbState k t1 pOn v).bind fun r =>
        if r.1 then some (if manual then 21 else 1, r.2)
        else (toUnsigned 64 pOn).map fun p =>
          if passed t2 r.2.start > p then (if manual then -12 else -2, r.2) else (if manual then 42 else 40, r.2)
    else some (if manual then 21 else 1, v)
  else if s = 0 then
    if hasFb k then
      if fbOff then some (if manual then 30 else 10, v)
      else (fbState k t1 pOn v).bind fun r =>
        if r.1 then some (if manual then 20 else 0, r.2)
        else (toUnsigned 64 pOn).map fun p =>
          if passed t2 r.2.start > p then (if manual then -13 else -3, r.2) else (if manual then 43 else 41, r.2)
    else some (if manual then 20 else 0, v)
  else if s = 5 then some (5, v)
  else some (100, v)

/-- What happens to a valve: it is driven, its inputs change, its state is asked for, it is evaluated in a cycle. -/
inductive Ev where
  | on (now : Tm)
  | off (now : Tm)
  | set (now : Tm) (n : Int)
  | inputs (x y : Bool)
  | ask (now : Tm) (manual : Bool)
  | tick (now : Tm)
  deriving DecidableEq

/-- One event, with the parameters `P_ON_TIME` and `P_FB`. -/
def step (k : Kind) (pOn pFb : Fl) (v : Dv) : Ev → Option Dv
  | .on now => some (directOn k now v)
  | .off now => some (directOff k now v)
  | .set now n => some (directSet k now n v)
  | .inputs x y => some { v with x := x, y := y }
  | .ask now m => (exState k now now pOn pFb m v).map Prod.snd
  | .tick now => tick k now pOn v

/-- A history; `none` as soon as something undefined happens. -/
def run (k : Kind) (pOn pFb : Fl) (v : Dv) : List Ev → Option Dv
  | [] => some v
  | e :: es => (step k pOn pFb v e).bind fun v => run k pOn pFb v es

/-! ## IO-Link mix-proof valve -/

/-- State of `valve_iolink_mix_proof`: outputs `sv1`, `sv2`, `sv3`, inputs of the process image and
`start_switch_time`; `ioOk`: `get_AI_IOLINK_state` is OK. -/
structure Iol where
  sv1 : Bool := false
  sv2 : Bool := false
  sv3 : Bool := false
  deEn : Bool := false
  main : Bool := false
  usl : Bool := false
  lsp : Bool := false
  st : Bool := false
  err : Bool := false
  ioOk : Bool := true
  start : Tm := 0
  deriving DecidableEq

/-- `direct_on` (lines 1423-1435). -/
def Iol.directOn (now : Tm) (v : Iol) : Iol :=
  let v := if v.main = false then { v with start := now } else v
  { v with sv1 := true, sv2 := false, sv3 := false }

/-- `direct_off` (lines 1437-1449). -/
def Iol.directOff (now : Tm) (v : Iol) : Iol :=
  let v := if v.sv1 ∨ v.sv2 ∨ v.sv3 then { v with start := now } else v
  { v with sv1 := false, sv2 := false, sv3 := false }

/-- `direct_set_state` (lines 1477-1513). -/
def Iol.directSet (now : Tm) (n : Int) (v : Iol) : Iol :=
  if n = 0 then v.directOff now
  else if n = 2 then { v.directOff now with sv2 := true }
  else if n = 3 then { v.directOff now with sv3 := true }
  else v.directOn now

/-- `get_fb_state` (lines 1329-1356). -/
def Iol.fbState (now : Tm) (pOn : Fl) (v : Iol) : Bool :=
  if !v.ioOk then false
  else if v.err then false
  else if inTime now v.start pOn then true
  else if !v.sv1 && v.deEn && v.st then true
  else if v.sv1 && v.main && v.st then true
  else if v.sv2 && v.usl && v.st then true
  else if v.sv3 && v.lsp && v.st then true
  else false

/-- `get_valve_state` (lines 1243-1256). -/
def Iol.valveState (v : Iol) : Int :=
  if v.deEn then 0 else if v.main then 1 else if v.usl then 2 else if v.lsp then 3 else 0

/-- `get_state` (lines 1358-1399). -/
def Iol.exState (t1 t2 : Tm) (pOn pFb : Fl) (manual : Bool) (v : Iol) : Option Int :=
  let s := v.valveState
  let fbOff := pFb.eq (.num 0)
  if s = 3 then some (if manual then 23 else if fbOff then 33 else if v.fbState t1 pOn then 3 else -3)
  else if s = 2 then some (if manual then 22 else if fbOff then 32 else if v.fbState t1 pOn then 2 else -3)
  else if s = 1 then
    if fbOff then some (if manual then 31 else 11)
    else if v.fbState t1 pOn then some (if manual then 21 else 1)
    else (toUnsigned 64 pOn).map fun p =>
      if passed t2 v.start > p then (if manual then -12 else -2) else (if manual then 42 else 40)
  else
    if fbOff then some (if manual then 30 else 10)
    else if v.fbState t1 pOn then some (if manual then 20 else 0)
    else (toUnsigned 64 pOn).map fun p =>
      if passed t2 v.start > p then (if manual then -13 else -3) else (if manual then 43 else 41)

/-- `get_off_fb_value`, `get_on_fb_value` (lines 1409-1421). -/
def Iol.offFb (v : Iol) : Bool := !v.sv1 && v.main && v.st
@[inherit_doc Iol.offFb] def Iol.onFb (v : Iol) : Bool := v.sv1 && v.deEn && v.st

/-- What happens to an IO-Link valve; `inputs`: `evaluate_io` (lines 1259-1294) reads the process image. -/
inductive IEv where
  | on (now : Tm)
  | off (now : Tm)
  | set (now : Tm) (n : Int)
  | inputs (deEn main usl lsp st err ioOk : Bool)

/-- One event. -/
def Iol.step (v : Iol) : IEv → Iol
  | .on now => v.directOn now
  | .off now => v.directOff now
  | .set now n => v.directSet now n
  | .inputs d m u l s e o => { v with deEn := d, main := m, usl := u, lsp := l, st := s, err := e, ioOk := o }

/-- A history. -/
def Iol.run (v : Iol) (es : List IEv) : Iol := es.foldl Iol.step v

end Ptusa.Valve
