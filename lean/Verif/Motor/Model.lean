import Verif.Valve.Model

/-!
# Motors with discrete channels

Model of `motor` (PAC/common/device/device.cpp lines 2273-2523).  Simplifications: the emulator is off; every channel a
sub type uses is configured, so that `get_DO` and `get_AO` return what was written last; inputs and outputs are 0 or 1.
-/
namespace Ptusa.Motor

open Valve (Tm passed)

/-- The sub types: `one`: `DST_M`, `DST_M_FREQ`; `rev`: `DST_M_REV`, `DST_M_REV_FREQ`; `rev2`: `DST_M_REV_2`,
`DST_M_REV_FREQ_2`; `rev2err`: `M_REV_2_ERROR`, `DST_M_REV_FREQ_2_ERROR`. -/
inductive Kind where
  | one | rev | rev2 | rev2err
  deriving DecidableEq

/-- A sub type: its kind and whether it has a frequency output (`..._FREQ...`). -/
structure Sub where
  kind : Kind
  freq : Bool

/-- State of a motor: the outputs `DO_INDEX` (`o`) and `DO_INDEX_REVERSE` (`r`), the input `DI_INDEX` or
`DI_INDEX_ERROR` (`i`), the frequency output and `start_switch_time`. -/
structure Mt where
  o : Bool := false
  r : Bool := false
  i : Bool := false
  speed : Rat := 0
  start : Tm := 0
  deriving DecidableEq

/-- `motor::direct_set_value` (lines 2295-2308). -/
def setValue (s : Sub) (v : Rat) (m : Mt) : Mt := if s.freq then { m with speed := v } else m

/-- `motor::direct_on` (lines 2459-2484). -/
def directOn (s : Sub) (now : Tm) (m : Mt) : Mt :=
  let m := if s.kind ≠ .one then (if m.r ≠ false then { m with start := now, r := false } else m) else m
  if m.o = false then { m with start := now, o := true } else m

/-- `motor::direct_off` (lines 2486-2513). -/
def directOff (s : Sub) (now : Tm) (m : Mt) : Mt :=
  let m := if m.o ≠ false then { m with start := now, o := false } else m
  let m := if s.kind ≠ .one then (if m.r ≠ false then { m with start := now, r := false } else m) else m
  setValue s 0 m

/-- `motor::direct_set_state` (lines 2310-2371). -/
def directSet (s : Sub) (now : Tm) (n : Int) (m : Mt) : Mt :=
  if s.kind = .rev ∧ n = 2 then
    let m := if m.o = false then { m with start := now, o := true } else m
    if m.r = false then { m with start := now, r := true } else m
  else if (s.kind = .rev2 ∨ s.kind = .rev2err) ∧ n = 2 then
    let m := if m.o = true then { m with start := now, o := false } else m
    if m.r = false then { m with start := now, r := true } else m
  else if n ≠ 0 then directOn s now m else directOff s now m

/-- `get_delta_millisec( start_switch_time ) > get_par( P_ON_TIME, 0 )`: the milliseconds become a `float`. -/
def late (now start : Tm) (pOn : Fl) : Bool := pOn.lt (Fl.num (Counter.rnd (passed now start)))

/-- `motor::get_state` (lines 2373-2457): the state shown and the motor after the call. -/
def getState (s : Sub) (now : Tm) (pOn : Fl) (m : Mt) : Int × Mt :=
  let err (m : Mt) : Int × Mt := if late now m.start pOn then (-1, m) else (if m.i then 1 else 0, m)
  match s.kind with
  | .rev2err =>
    let shown (m : Mt) : Int × Mt := (if m.r then 2 else if m.o then 1 else 0, m)
    if m.i = true then
      if late now m.start pOn then (-1, m) else shown m
    else shown { m with start := now }
  | .rev =>
    if m.r = false ∧ m.o = false ∧ m.i = false then (0, { m with start := now })
    else if m.r = false ∧ m.o = true ∧ m.i = true then (1, { m with start := now })
    else if m.r = true ∧ m.o = true ∧ m.i = true then (2, { m with start := now })
    else err m
  | .rev2 =>
    if m.r = false ∧ m.o = false ∧ m.i = false then (0, { m with start := now })
    else if m.r = false ∧ m.o = true ∧ m.i = true then (1, { m with start := now })
    else if m.r = true ∧ m.o = false ∧ m.i = true then (2, { m with start := now })
    else err m
  | .one => if m.o = m.i then (if m.i then 1 else 0, { m with start := now }) else err m

/-- What happens to a motor. -/
inductive Ev where
  | on | off
  | set (n : Int)
  | speed (v : Rat)
  | input (b : Bool)
  | ask
  deriving DecidableEq

/-- One event at a time. -/
def step (s : Sub) (pOn : Fl) (m : Mt) (e : Tm × Ev) : Mt :=
  match e.2 with
  | .on => directOn s e.1 m
  | .off => directOff s e.1 m
  | .set n => directSet s e.1 n m
  | .speed v => setValue s v m
  | .input b => { m with i := b }
  | .ask => (getState s e.1 pOn m).2

/-- Events in turn. -/
def run (s : Sub) (pOn : Fl) (m : Mt) (es : List (Tm × Ev)) : Mt := es.foldl (step s pOn) m

end Ptusa.Motor
