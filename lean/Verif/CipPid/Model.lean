import Mathlib.Data.Rat.Floor
import Mathlib.Algebra.Order.Field.Rat

/-!
# The regulators of a washing line: `MSAPID` (cip_tech_def.cpp 7542-7793, cip_tech_def.h 438-560)

One regulator heats the solution with the steam valve, the other one keeps the flow with the pump. They differ from the regulators of
`PID.cpp` (modelled in `Pid`).

Simplifications. Exact numbers instead of `float`. The clock does not overflow. The output takes every value that is set.
-/
namespace Ptusa.CipPid

/-- The parameters (`PARAM`, cip_tech_def.h 493-506) and the parameter which scales the output (`out_max_recalc_offset`). -/
structure Par where
  z : Rat := 0
  k : Rat := 0
  ti : Rat := 0
  td : Rat := 0
  dt : Rat := 0
  max : Rat := 0
  min : Rat := 0
  acc : Rat := 0
  manual : Rat := 0
  uman : Rat := 0
  u : Rat := 0
  maxOut : Rat := 0
  deriving DecidableEq, Repr

/-- The regulator and the value of its output: `state`, `uk_1`, `ek_1`, `ek_2`, `Uk`, `start_time`, `last_time`, `prev_manual_mode`,
`is_down_to_inaccel_mode`, `start_value`, `lastEvalInOnState`. -/
structure Reg where
  on : Bool := false
  uk1 : Rat := 0
  ek1 : Rat := 0
  ek2 : Rat := 0
  uk : Rat := 0
  start : Nat
  last : Nat
  prev : Bool := false
  down : Bool := false
  sv : Rat := 0
  seen : Nat
  par : Par
  out : Rat := 0
  deriving DecidableEq, Repr

/-- The constructor (cip_tech_def.cpp 7542-7567). -/
def Reg.init (t : Nat) (p : Par) : Reg := { start := t, last := t, seen := t, par := p }

/-- The interval in seconds (7676, 7702). -/
def Par.step (p : Par) : Rat := if p.dt / 1000 = 0 then 1 else p.dt / 1000

/-- `TI` (7673, 7703). -/
def Par.tint (p : Par) : Rat := if p.ti = 0 then 1 / 10000 else p.ti

/-- `ek` (7677-7690), the deviation in per cent; `delta_sign` is always 1. -/
def Par.dev (p : Par) (cur : Rat) : Rat := 100 * (p.z - cur) / ((if p.max = p.min then p.min + 1 else p.max) - p.min)

/-- `dUk` (7707-7711). -/
def Reg.change (r : Reg) (e : Rat) : Rat :=
  r.par.k * (1 + r.par.td / r.par.step) * e + r.par.k * (-1 - 2 * r.par.td / r.par.step + 2 * r.par.step / r.par.tint) * r.ek1 +
    r.par.k * r.par.td / r.par.step * r.ek2

/-- The limits of the output (7713-7714). -/
def clamp (u : Rat) : Rat := if 100 < u then 100 else if u < 0 then 0 else u

/-- `acceleration` (7769-7783). -/
def Reg.accel (r : Reg) (now : Nat) : Reg :=
  let res := 100 * (((now - r.start : Nat) : Rat) / 1000) / r.par.acc
  if r.down then { r with uk := if r.uk < 100 - res + r.sv then 100 - res + r.sv else r.uk }
  else { r with uk := if res < r.uk then res + r.sv else r.uk }

/-- The calculation when the interval is over (7705-7729). -/
def Reg.recalc (r : Reg) (now : Nat) (cur : Rat) : Reg :=
  let e := r.par.dev cur
  let u := clamp (r.uk1 + r.change e)
  let r := { r with uk := u, uk1 := u, ek2 := r.ek1, ek1 := e }
  let r := if ((now - r.start : Nat) : Rat) < r.par.acc * 1000 then r.accel now else r
  { r with last := now }

/-- `pid_reset` (7642-7658). -/
def Reg.clear (r : Reg) (now : Nat) : Reg :=
  { r with uk1 := 0, ek1 := 0, ek2 := 0, uk := if r.down then 100 else 0, par := { r.par with u := 0, manual := 0 }, start := now }

/-- `reset` (7604-7610): only when nothing was calculated for three seconds. -/
def Reg.reset (r : Reg) (now : Nat) : Reg := if 3000 < now - r.seen then r.clear now else r

/-- The scaled output (7754-7758). -/
def Reg.scaled (r : Reg) : Rat := if 1 / 10 ≤ r.par.maxOut then r.uk * r.par.maxOut / 100 else r.uk

/-- The manual mode has been switched on (7733-7737). -/
def Reg.enter (r : Reg) : Reg := if r.par.manual ≠ 0 ∧ r.prev = false then { r with prev := true, par := { r.par with uman := r.par.u } } else r

/-- The calculation at the end of an interval (7705-7729). -/
def Reg.tick (r : Reg) (now : Nat) (cur : Rat) : Reg := if r.par.step * 1000 < ((now - r.last : Nat) : Rat) then r.recalc now cur else r

/-- The end of `pid_eval` (7739-7768): the manual mode has been switched off, or the value is scaled. -/
def Reg.finish (r : Reg) (now : Nat) : Reg × Rat :=
  if r.par.manual = 0 ∧ r.prev = true then
    let r := ({ r with prev := false } : Reg).reset now
    ({ r with start := now, sv := r.par.uman }, r.par.uman)
  else ({ r with par := { r.par with u := r.scaled } }, if r.par.manual = 1 then r.par.uman else r.scaled)

/-- `pid_eval` (7660-7768). -/
def Reg.pidEval (r : Reg) (now : Nat) (cur : Rat) : Reg × Rat :=
  if r.on then (r.tick now cur).enter.finish now else (r, if r.down then 100 else 0)

/-- The beginning of `eval`: the time and the task are noted (7573-7574, 7590-7592, 7785-7788). -/
def Reg.task (r : Reg) (now : Nat) (task : Rat) : Reg := { r with seen := now, par := { r.par with z := task } }

/-- The value is set. -/
def Reg.put (x : Reg × Rat) : Reg := { x.1 with out := x.2 }

/-- `eval()` (7569-7584): the deviation from the parameter with the task. -/
def Reg.eval (r : Reg) (now : Nat) (cur task : Rat) : Reg :=
  if r.on then .put ((r.task now task).pidEval now cur) else r

/-- `eval( float, float )` (7586-7602): a task of zero switches the output off. -/
def Reg.follow (r : Reg) (now : Nat) (cur task : Rat) : Reg :=
  if r.on then if task = 0 then { r.task now task with out := 0 } else .put ((r.task now task).pidEval now cur) else r

/-- `on`, `pid_on` (7612-7615, 7623-7632). -/
def Reg.turnOn (r : Reg) (now : Nat) (down : Bool) : Reg :=
  if r.on then r else { r with on := true, start := now, last := now, down := down }

/-- `off`, `pid_off` (7617-7621, 7634-7640). -/
def Reg.turnOff (r : Reg) : Reg := { r with on := false, out := 0 }

/-- What happens to a regulator: the two calculations, a reset at the beginning of a step, a reset after a pause, switching on and off, the
operator or the program changes parameters. -/
inductive Ev
  | eval (cur task : Rat)
  | follow (cur task : Rat)
  | reset
  | clear
  | on (down : Bool)
  | off
  | set (f : Par → Par)

def Reg.event (r : Reg) (now : Nat) : Ev → Reg
  | .eval cur task => r.eval now cur task
  | .follow cur task => r.follow now cur task
  | .reset => r.reset now
  | .clear => r.clear now
  | .on down => r.turnOn now down
  | .off => r.turnOff
  | .set f => { r with par := f r.par }

/-- Events with their times. -/
def Reg.run (r : Reg) : List (Nat × Ev) → Reg
  | [] => r
  | e :: h => (r.event e.1 e.2).run h

end Ptusa.CipPid
