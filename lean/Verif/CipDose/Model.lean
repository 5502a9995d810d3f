import Mathlib.Data.Rat.Floor
import Mathlib.Algebra.Order.Field.Rat

/-!
# Preparation of a solution: quantities and times

`InitFilRR`, `InitCircRR`, `InitCheckConc`, `InitAddRR` (cip_tech_def.cpp 3614-3861), `FilRR`, `CircRR`, `CheckConc`, `AddRR`
(3920-4081), `TSav` (7797-7831), the parts of `_InitStep` (2275-2288), `_Stop` (1610-1628) and `ResetStat` (3102-3103) which they need.
The valves of these steps are modelled in `CipFlow`, the order of the steps in `Cip`, the timer itself in `Timer`.

Simplifications. Exact numbers instead of `float`. The clock does not overflow. The concentration (`GetConc`, modelled in `CipFlow`) and
the counter are given by the outside.
-/
namespace Ptusa.CipDose

/-- The steps 105/115, 106/116, 108/118, 109/119. -/
inductive Step
  | fill | circ | check | add
  deriving DecidableEq, Repr

/-- The parameters of the station for one tank: the flow of the dosing pump (`P_PDNS`, litres in an hour), the concentration of the
concentrate (`P_K_S`, per cent), the concentration to reach (`P_CZAD_S`, per cent), the density (`P_RO_S`), the volume of the tank
(`P_VTANKS`), `P_NAV_OVERREGULATE`, `P_NAV_TOLERANCE`, `P_TM_CIRC_RR`, `P_TM_CHKC`. -/
structure Par where
  pd : Rat
  kk : Rat
  czad : Rat
  ro : Rat
  vt : Rat
  over : Rat
  tol : Rat
  tmCirc : Rat
  tmChk : Rat

inductive TSt
  | stop | work | pause
  deriving DecidableEq, Repr

/-- `timer` (device.cpp 3528-3609) with a clock which does not overflow; see `Timer`. -/
structure Tmr where
  st : TSt := .stop
  at_ : Nat := 0
  work : Nat := 0
  cd : Nat := 0
  deriving DecidableEq, Repr

/-- `timer::get_work_time` (device.cpp 3578-3588). -/
def Tmr.time (t : Tmr) (now : Nat) : Nat := if t.st = .work then t.work + (now - t.at_) else t.work

/-- `timer::start` (device.cpp 3532-3544). -/
def Tmr.start (t : Tmr) (now : Nat) : Tmr := match t.st with
  | .stop => { t with st := .work, at_ := now, work := 0 }
  | .pause => { t with st := .work, at_ := now }
  | .work => t

/-- `timer::reset` (device.cpp 3546-3550). -/
def Tmr.reset (t : Tmr) : Tmr := { t with st := .stop, work := 0 }

/-- `timer::pause` (device.cpp 3552-3559). -/
def Tmr.pause (t : Tmr) (now : Nat) : Tmr := { t with st := .pause, work := t.time now }

/-- `timer::is_time_up` (device.cpp 3561-3576): the time is cut to 32 bits. -/
def Tmr.up (t : Tmr) (now : Nat) : Bool := t.st == .work && decide (t.cd < t.time now % 2 ^ 32)

/-- `TSav` (cip_tech_def.cpp 7797-7831). -/
structure Sav where
  n : Nat := 0
  cn : Rat := 0
  integrator : Nat := 0

/-- The loop of `TSav::Add` (cip_tech_def.cpp 7813-7817). -/
def Sav.loop (s : Sav) (val : Rat) : Nat → Sav
  | 0 => s
  | k + 1 => ({ s with n := s.n + 1, cn := (s.cn * s.n + val) / (s.n + 1) } : Sav).loop val k

/-- `TSav::Add` (cip_tech_def.cpp 7806-7819). -/
def Sav.add (s : Sav) (val : Rat) (q : Nat) : Sav :=
  if s.integrator < q then ({ s with integrator := q } : Sav).loop val (q - s.integrator) else s

/-- The line: whether it works (`state > 0`), its step, `T[ TMR_OP_TIME ]`, `P_OP_TIME_LEFT`, `P_MAX_OPER_TM`, `P_CONC_RATE`, `P_CONC`, the
dosing pump `NS` or `NK`, `no_liquid_phase` (0 or 1), `no_liquid_last_time`, `no_liquid_is_warning`, `SAV[ SAV_CONC ]`. -/
structure Line where
  on : Bool := false
  step : Step := .fill
  tmr : Tmr := {}
  left : Rat := 0
  maxTm : Rat := 0
  rate : Rat := 0
  conc : Rat := 0
  pump : Bool := false
  phase : Bool := false
  last : Rat := 0
  warn : Bool := false
  sav : Sav := {}

/-- `if ( 0 == divider ) divider = 1`. -/
def nz (q : Rat) : Rat := if q = 0 then 1 else q

/-- `(unsigned long) x * 1000L`: undefined outside of the type, otherwise modulo its size. -/
def toMs (q : Rat) : Option Nat := if -1 < q ∧ q < 2 ^ 64 then some (⌊q⌋.toNat * 1000 % 2 ^ 64) else none

/-- A new time of a step: `P_MAX_OPER_TM`, `set_countdown_time`, `start`. -/
def Line.setTime (l : Line) (now : Nat) (s : Rat) : Option Line :=
  (toMs s).map fun ms => { l with maxTm := s, tmr := ({ l.tmr with cd := ms } : Tmr).start now }

/-- The volume of concentrate which is missing (cip_tech_def.cpp 3818-3825). -/
def volume (p : Par) (conc : Rat) : Rat :=
  let v := (p.czad / 100 - conc / 100) * p.vt / nz ((1 - p.czad / 100) * (p.kk / 100) * p.ro)
  if v < 1 then 1 else v

/-- `std::abs` (cip_tech_def.cpp 3839). -/
def fabs (q : Rat) : Rat := if q < 0 then -q else q

/-- `InitAddRR` (cip_tech_def.cpp 3762-3861). -/
def Line.initAdd (l : Line) (p : Par) (now : Nat) (again : Bool) : Option Line :=
  let conc := l.conc
  let l := { l with pump := true, conc := 0, left := 0 }
  if again then some { l with tmr := l.tmr.start now }
  else
    let v := volume p conc
    let a := v / nz p.pd * 1000
    let l := if l.phase then { l with warn := l.warn || decide (fabs (l.last - a) < l.last * (1 / 10)), last := a }
      else { l with last := a, phase := true, warn := false }
    l.setTime now (v / nz p.pd * 3600)

/-- `InitCircRR` (cip_tech_def.cpp 3698-3750). -/
def Line.initCirc (l : Line) (p : Par) (now : Nat) : Option Line :=
  ({ l with pump := false, conc := 0, left := 0 } : Line).setTime now p.tmCirc

/-- `InitFilRR` (cip_tech_def.cpp 3614-3696). -/
def Line.initFill (l : Line) (p : Par) (now : Nat) : Option Line :=
  let v := p.czad / 100 * 1000 / (nz (1 - p.czad / 100) * nz (p.kk / 100) * nz p.ro)
  ({ l with rate := 0, conc := 0, left := 0 } : Line).setTime now (v / nz p.pd * 2 * 3600)

/-- `_InitStep` (cip_tech_def.cpp 2275-2288, 2383-2391): a new step (not a resumed one) resets the timers and the averages. -/
def Line.init (l : Line) (p : Par) (now : Nat) (s : Step) (again : Bool) : Option Line :=
  let l := { l with on := true, step := s }
  let l := if again then l else { l with tmr := l.tmr.reset, sav := {} }
  match s with
  | .fill => l.initFill p now
  | .circ => l.initCirc p now
  | .check => (l.initCirc p now).bind fun l => ({ l with tmr := l.tmr.reset } : Line).setTime now p.tmChk
  | .add => l.initAdd p now again

/-- What a cycle of a step answers: go on, the step is over with a result, the error `ERR_POSSIBLE_NO_MEDIUM`. -/
inductive Out
  | go | done (r : Nat) | noMedium
  deriving DecidableEq, Repr

/-- The working time in whole seconds. -/
def Line.secs (l : Line) (now : Nat) : Nat := l.tmr.time now / 1000

/-- The concentrate used (cip_tech_def.cpp 3970-3972, 4045-4047). -/
def Line.count (l : Line) (p : Par) (now : Nat) : Line := { l with rate := l.rate + p.pd * (l.secs now - l.left) / 3600 }

/-- `CircRR` (cip_tech_def.cpp 3964-3993). -/
def Line.doCirc (l : Line) (p : Par) (now : Nat) (c : Rat) : Line × Out :=
  let l := l.count p now
  ({ l with left := l.secs now, conc := c }, if l.tmr.up now then .done 1 else .go)

/-- `CheckConc` (cip_tech_def.cpp 3995-4037). -/
def Line.doCheck (l : Line) (p : Par) (now : Nat) (c : Rat) (q : Nat) : Line × Out :=
  let s := l.sav.add c q
  ({ l with left := l.secs now, sav := s, conc := s.cn },
    if l.tmr.up now then (if p.czad * (1 - p.tol / 100) ≤ c then .done 1 else .done 2) else .go)

/-- `AddRR` (cip_tech_def.cpp 4039-4081). -/
def Line.doAdd (l : Line) (p : Par) (now : Nat) (c : Rat) : Line × Out :=
  let l := l.count p now
  if p.czad * (1 + p.over / 100) < c then (l, .done 1)
  else
    let l := { l with left := l.secs now, conc := c }
    if l.tmr.up now then (l, .done 1)
    else if l.warn then ({ l with warn := false }, .noMedium)
    else (l, .go)

/-- A cycle: `FilRR` (cip_tech_def.cpp 3920-3962) ends by a level, `full`. -/
def Line.cycle (l : Line) (p : Par) (now : Nat) (c : Rat) (q : Nat) (full : Bool) : Line × Out :=
  match l.step with
  | .fill => ({ l with left := l.secs now }, if full then .done 1 else .go)
  | .circ => l.doCirc p now c
  | .check => l.doCheck p now c q
  | .add => l.doAdd p now c

/-- `_Stop` (cip_tech_def.cpp 1610-1628). -/
def Line.stop (l : Line) (now : Nat) : Line :=
  { l with on := false, tmr := l.tmr.pause now, pump := l.pump && l.step != .fill && l.step != .add }

/-- What happens to the line: a cycle, the line is stopped (pause, error), the step is resumed, the next step begins. -/
inductive Ev
  | cycle (c : Rat) (q : Nat) (full : Bool)
  | stop
  | resume
  | next (s : Step)
  deriving DecidableEq

/-- One event. A cycle and a stop concern a line which works, a resume one which was stopped. An error stops the line
(cip_tech_def.cpp 2616-2631). -/
def Line.event (l : Line) (p : Par) (now : Nat) : Ev → Option Line
  | .cycle c q f => if l.on then
      match l.cycle p now c q f with
      | (l', .noMedium) => some (l'.stop now)
      | (l', _) => some l'
    else some l
  | .stop => if l.on then some (l.stop now) else some l
  | .resume => if l.on then some l else l.init p now l.step true
  | .next s => l.init p now s false

/-- Events with their times. -/
def Line.run (l : Line) (p : Par) : List (Nat × Ev) → Option Line
  | [] => some l
  | e :: h => (l.event p e.1 e.2).bind fun l => l.run p h

end Ptusa.CipDose
