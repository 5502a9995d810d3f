import Verif.Cip.Model
import Verif.CipDose.Model

/-!
# What a step of a washing program is set to

The settings which the functions `Init…` of the washing steps make: temperature, flow, volume, time (`_InitToObject`,
`_InitFromObject`, `_InitOporCIP`, `_InitFilCirc`, `_InitOporCirc`, `_InitCirc`, cip_tech_def.cpp 4117-4831, `_InitDoseRR`,
5614-5655, `SCInitPumping`, 6268-6427), and the time a circulation lasts (`_Circ`, 5379-5387 and 5529-5576). The valves of these
steps are modelled in `CipFlow`, their order in `Cip`, the preparation of solutions (steps 105 to 121) in `CipDose`.

Simplifications. Exact numbers instead of `float`; `3.6f` is 18/5. No hand mode of the regulators (`HI` is 0). Lua functions do
not replace the functions of the line. `unsigned long` has 64 bits.
-/
namespace Ptusa.CipSet
open CipDose (Tmr)

/-- The parameters of the line which these functions read (`workParameters`, cip_tech_def.h 255-383). -/
inductive Par
  | T_WP | T_WSP | T_WKP | T_WOP | T_S | T_K | T_D | T_SANITIZER | T_CLEAN_RINSING | T_SANITIZER_RINSING
  | V1 | V2 | DOP_V_PR_OP | DOP_V_AFTER_S | DOP_V_AFTER_K | DOP_V_OK_OP | V_CLEAN_RINSING | V_SANITIZER_RINSING
  | FLOW | V_RAB_ML | V_LL_BOT | TM_MAX_TIME_OPORBACHOK | TM_MAX_TIME_OPORCIP
  | TM_OP | TM_S | TM_K | TM_S_SK | TM_K_SK | TM_D | TM_SANITIZER | TM_SANITIZER_INJECT
  deriving DecidableEq, Repr

/-- What the settings depend on: the parameters, `P_PROGRAM`, `program_has_cold_desinfection`, `isTank()`, `isLine()`,
`disable_tank_heating`. -/
structure Ctx where
  r : Par → Rat
  prog : Nat
  cold : Bool
  tank : Bool
  line : Bool
  noTankHeat : Bool

/-- The settings: `PIDP` is on, `P_ZAD_PODOGR`, `PIDF` is on, `P_ZAD_FLOW`, `P_VRAB`, `P_MAX_OPER_TM`, the countdown time of
`TMR_OP_TIME` in milliseconds. -/
structure Set where
  heat : Bool := false
  temp : Rat := 0
  pump : Bool := false
  flow : Rat := 0
  vol : Rat := 0
  limit : Rat := 0
  cd : Nat := 0

/-- `(unsigned long) x * 1000`; `none`: `x` is outside of the type. -/
def toMs (x : Rat) : Option Nat := if -1 < x ∧ x < 2 ^ 64 then some (x.floor.toNat * 1000 % 2 ^ 64) else none

/-- The limit of the time and the countdown. -/
def Set.within (s : Set) (x : Rat) : Option Set := (toMs x).map fun ms => { s with limit := x, cd := ms }

/-- The temperature of the final rinse (cip_tech_def.cpp 4246-4264, 4444-4461). -/
def Ctx.finalTemp (c : Ctx) : Rat :=
  if c.prog = 1 then c.r .T_CLEAN_RINSING else if c.cold then c.r .T_SANITIZER_RINSING else c.r .T_WOP

/-- The additional volume of the final rinse (4287-4304). -/
def Ctx.finalVol (c : Ctx) : Rat :=
  if c.prog = 1 then c.r .V_CLEAN_RINSING else if c.cold then c.r .V_SANITIZER_RINSING else c.r .DOP_V_OK_OP

/-- The temperature in `_InitToObject` (4214-4265); 1 in other steps. -/
def Ctx.toTemp (c : Ctx) (step : Int) : Rat :=
  if step = 5 ∨ step = 8 ∨ step = 14 then c.r .T_WP
  else if step = 22 then c.r .T_S
  else if step = 33 ∨ step = 37 then c.r .T_WSP
  else if step = 53 ∨ step = 57 then c.r .T_WKP
  else if step = 42 then c.r .T_K
  else if step = 62 then c.r .T_D
  else if step = 72 then c.r .T_SANITIZER
  else if step = 83 ∨ step = 86 then c.finalTemp
  else 1

/-- The volume in `_InitToObject` (4266-4305); 1 in other steps. -/
def Ctx.toVol (c : Ctx) (step : Int) : Rat :=
  if step = 5 ∨ step = 22 ∨ step = 33 ∨ step = 42 ∨ step = 53 ∨ step = 62 ∨ step = 72 ∨ step = 83 then c.r .V1
  else if step = 8 then c.r .DOP_V_PR_OP
  else if step = 37 then c.r .DOP_V_AFTER_S
  else if step = 57 then c.r .DOP_V_AFTER_K
  else if step = 86 then c.finalVol
  else 1

/-- `3.6f * MAX_OP_TIME * p / divider` (4318-4324, 4477-4483). -/
def maxTime (p flow : Rat) : Rat := 18 / 5 * 2 * p / (if flow = 0 then 1 else flow)

/-- `_InitToObject` (4306-4326). -/
def Ctx.toObject (c : Ctx) (step : Int) (_s : Set) : Option Set :=
  let off := c.tank ∧ (step = 22 ∨ step = 42 ∨ step = 62)
  ({ heat := !decide off, temp := if off then 0 else c.toTemp step, pump := true, flow := c.r .FLOW, vol := c.toVol step } :
    Set).within (maxTime (c.toVol step) (c.r .FLOW))

/-- The temperature in `_InitFromObject` (4421-4462); 0 in other steps. -/
def Ctx.fromTemp (c : Ctx) (step : Int) : Rat :=
  if step = 7 then c.r .T_WP
  else if step = 24 then c.r .T_S
  else if step = 35 then c.r .T_WSP
  else if step = 55 then c.r .T_WKP
  else if step = 44 then c.r .T_K
  else if step = 64 then c.r .T_D
  else if step = 74 then c.r .T_SANITIZER
  else if step = 85 then c.finalTemp
  else 0

/-- `_InitFromObject` (4463-4485). -/
def Ctx.fromObject (c : Ctx) (step : Int) (_s : Set) : Option Set :=
  let off := c.noTankHeat ∧ c.tank ∧ (step = 24 ∨ step = 44 ∨ step = 64)
  ({ heat := !decide off, temp := if off then 0 else c.fromTemp step, pump := true, flow := c.r .FLOW, vol := c.r .V2 } :
    Set).within (maxTime (c.r .V2) (c.r .FLOW))

/-- `_InitOporCIP` (4506-4581): nothing for a line. -/
def Ctx.emptyObject (c : Ctx) (s : Set) : Option Set :=
  if c.line then some s
  else ({ heat := false, temp := 0, pump := false, flow := 0, vol := 0 } : Set).within (c.r .TM_MAX_TIME_OPORCIP)

/-- `_InitFilCirc` (4583-4641) with water. -/
def Ctx.fillWater (c : Ctx) (s : Set) : Option Set :=
  { s with heat := false, pump := false, vol := c.r .V_RAB_ML }.within 300

/-- `_InitFilCirc` (4583-4641) from the return: the temperature and the flow stay. -/
def Ctx.fillReturn (c : Ctx) (step : Int) (s : Set) : Option Set :=
  let off := c.tank ∧ (step = 26 ∨ step = 46 ∨ step = 65)
  { s with heat := !decide off, pump := true, vol := c.r .V_RAB_ML }.within 300

/-- `_InitOporCirc` (4693-4719). -/
def Ctx.emptyCirc (c : Ctx) (step : Int) (_s : Set) : Option Set :=
  ({ heat := true
     temp :=
       if step = 29 then c.r .T_WSP
       else if step = 49 then c.r .T_WKP
       else if step = 67 then c.r .T_WOP
       else if step = 78 then c.r .T_SANITIZER_RINSING
       else 0
     pump := true, flow := c.r .FLOW, vol := c.r .V_LL_BOT } : Set).within (c.r .TM_MAX_TIME_OPORBACHOK)

/-- What is circulated. -/
inductive Medium
  | water | hot | sanitizer | caustic | acid
  deriving DecidableEq, Repr

/-- The temperature in `_InitCirc` (4764-4808). -/
def Ctx.circTemp (c : Ctx) : Medium → Rat
  | .water => c.r .T_WP
  | .sanitizer => c.r .T_SANITIZER
  | .hot => c.r .T_D
  | .caustic => c.r .T_S
  | .acid => c.r .T_K

/-- The time in `_InitCirc` (4764-4808); `PRG_K` is 4, `PRG_S` is 5. -/
def Ctx.circTime (c : Ctx) : Medium → Rat
  | .water => c.r .TM_OP
  | .sanitizer => c.r .TM_SANITIZER
  | .hot => c.r .TM_D
  | .caustic => if c.prog &&& 48 = 48 then c.r .TM_S_SK else c.r .TM_S
  | .acid => if c.prog &&& 48 = 48 then c.r .TM_K_SK else c.r .TM_K

/-- `_InitCirc` (4810-4826). -/
def Ctx.circ (c : Ctx) (m : Medium) (_s : Set) : Option Set :=
  (toMs (c.circTime m)).map fun ms =>
    { heat := true, temp := c.circTemp m, pump := true, flow := c.r .FLOW, vol := 0, limit := ((ms / 1000 : Nat) : Rat), cd := ms }

/-- `_InitDoseRR` (5614-5655): `StopDev` has switched the regulators off. -/
def Ctx.dose (c : Ctx) (_s : Set) : Option Set :=
  ({ heat := false, temp := c.r .T_SANITIZER, pump := true, flow := c.r .FLOW, vol := 0 } : Set).within (c.r .TM_SANITIZER_INJECT)

/-- The washing steps in the switch of `_InitStep` (2303-2380). `none`: undefined conversion; other steps leave the settings. -/
def Ctx.init (c : Ctx) (step : Int) (s : Set) : Option Set :=
  if step = 5 ∨ step = 8 ∨ step = 14 ∨ step = 22 ∨ step = 33 ∨ step = 37 ∨ step = 42 ∨ step = 53 ∨ step = 57 ∨ step = 62 ∨ step = 72 ∨
    step = 83 ∨ step = 86 then c.toObject step s
  else if step = 7 ∨ step = 24 ∨ step = 35 ∨ step = 44 ∨ step = 55 ∨ step = 64 ∨ step = 74 ∨ step = 85 then c.fromObject step s
  else if step = 6 ∨ step = 9 ∨ step = 23 ∨ step = 34 ∨ step = 40 ∨ step = 43 ∨ step = 54 ∨ step = 60 ∨ step = 63 ∨ step = 73 ∨
    step = 79 ∨ step = 84 ∨ step = 91 then c.emptyObject s
  else if step = 10 ∨ step = 13 ∨ step = 26 ∨ step = 46 then c.fillReturn step s
  else if step = 31 ∨ step = 61 ∨ step = 65 ∨ step = 71 ∨ step = 75 ∨ step = 81 then c.fillWater s
  else if step = 12 ∨ step = 15 ∨ step = 16 ∨ step = 29 ∨ step = 39 ∨ step = 49 ∨ step = 59 ∨ step = 67 ∨ step = 78 then c.emptyCirc step s
  else if step = 11 then c.circ .water s
  else if step = 28 then c.circ .caustic s
  else if step = 48 then c.circ .acid s
  else if step = 66 then c.circ .hot s
  else if step = 77 then c.circ .sanitizer s
  else if step = 76 then c.dose s
  else some s

/-- What happens to a wash: the next step (`b`: the condition of `Cip.succ`; `prg`, `prog`, `o`: what `_LoadProgram` finds when
the part of the program is over), a stop, the resumption. With each the line has the settings `c`, for which
`program_has_cold_desinfection` is set by `_LoadProgram` (3178-3185). -/
inductive Ev
  | next (b : Bool) (prg : Int) (prog : Nat) (o : Cip.Opt)
  | stop
  | resume

/-- A wash: the step and the settings. -/
structure Wash where
  step : Int := 0
  set : Set := {}

/-- One event. `_Stop` switches the regulators off (1545-1546). -/
def Wash.next (c : Ctx) (w : Wash) : Ev → Option Wash
  | .next b prg prog o =>
    let step := match Cip.succ w.step b with
      | some s => s
      | none => Cip.startStep prg prog o
    (c.init step w.set).map fun s => ⟨step, s⟩
  | .stop => some { w with set := { w.set with heat := false, pump := false } }
  | .resume => (c.init w.step w.set).map fun s => { w with set := s }

/-- A history, from the beginning of a wash. -/
def run (c : Ctx) (w : Wash) : List Ev → Option Wash
  | [] => some w
  | e :: l => (w.next c e).bind fun w => run c w l

/-! ## The time of a circulation -/

/-- What happens during a circulation, with the time: a cycle of `_Circ` (temperature of the return, `P_ZAD_PODOGR`, `P_DELTA_TR`,
flow, `P_R_NO_FLOW`, the state of `dev_os_can_continue`, if there is one), a stop (`PauseTimers`), a resumption (`_InitCirc`). -/
inductive CEv
  | cycle (now : Nat) (tr z delta flow noFlow : Rat) (cont : Option Bool)
  | stop (now : Nat)
  | resume (now : Nat)

/-- `TMR_OP_TIME`, `wasflip`. -/
structure Circ where
  tmr : Tmr
  flip : Bool := false

/-- `_InitStep` and `_InitCirc` (2275-2288, 4826): `RT`, the countdown. -/
def enter (t : Tmr) (cd : Nat) : Circ := ⟨{ t.reset with cd := cd }, false⟩

/-- A cycle (5379-5387, 5529-5576) and its result. -/
def Circ.cycle (c : Circ) (now : Nat) (tr z delta flow noFlow : Rat) (cont : Option Bool) : Circ × Bool :=
  let t := if tr ≥ z - delta ∧ flow > noFlow then c.tmr.start now else c.tmr.pause now
  if t.up now then
    (⟨t, c.flip⟩, match cont with
      | some b => b || c.flip
      | none => true)
  else (⟨t, c.flip || cont == some true⟩, false)

/-- The circulation goes on through a history with the same time of the recipe; `none`: it is over before. -/
def goOn (c : Circ) : List CEv → Option Circ
  | [] => some c
  | .cycle now tr z delta flow noFlow cont :: l =>
    match c.cycle now tr z delta flow noFlow cont with
    | (c, false) => goOn c l
    | (_, true) => none
  | .stop now :: l => goOn { c with tmr := c.tmr.pause now } l
  | .resume _ :: l => goOn c l

/-! ## Self-cleaning -/

/-- The parameters of self-cleaning (cip_tech_def.h 388-408) and the volumes of the tanks of the station. -/
inductive Sc
  | FLOW | V_TW_PREDV | T_TS_DRAIN | T_TK_DRAIN | T_TW_DRAIN | T_SCH_CIRC_PREDV | T_K_CIRC_PREDV | T_TS_CIRC | T_TK_CIRC | T_TW_CIRC
  | LL_TS | LL_TK | LL_TW | V_CLEAN_TS | V_CLEAN_TK | V_CLEAN_TW | V_PROM_TS | V_PROM_TK | V_PROM_TW | VTANKS | VTANKK | VTANKW
  deriving DecidableEq, Repr

/-- The volume and the time of a step (6296-6381), both 0 in other steps. -/
def scAmount (r : Sc → Rat) (flow : Rat) (step : Int) : Rat × Rat :=
  let rest (p : Sc) : Rat × Rat := (r p, r p / flow * (18 / 5) * (6 / 5))
  if step = 151 then (0, r .VTANKW / flow * 5)
  else if step = 152 then (r .LL_TW, 0)
  else if step = 153 then (r .V_TW_PREDV, 0)
  else if step = 154 then (0, r .T_TW_DRAIN)
  else if step = 155 then (0, r .T_SCH_CIRC_PREDV)
  else if step = 156 then (0, r .VTANKS / flow * 5)
  else if step = 157 then rest .LL_TS
  else if step = 160 then (r .V_PROM_TS, 0)
  else if step = 161 then (0, r .T_TW_CIRC)
  else if step = 162 then (0, r .T_K_CIRC_PREDV)
  else if step = 163 then (0, r .VTANKK / flow * 5)
  else if step = 164 then rest .LL_TK
  else if step = 167 then (r .V_PROM_TK, 0)
  else if step = 168 then (0, r .T_TS_CIRC)
  else if step = 169 then (0, r .VTANKW / flow * 5)
  else if step = 170 then rest .LL_TW
  else if step = 173 then (r .V_PROM_TW, 0)
  else if step = 174 then (0, r .T_TK_CIRC)
  else if step = 175 then (0, r .VTANKK / flow * 5)
  else if step = 176 then rest .LL_TK
  else if step = 179 then (r .V_PROM_TS, 0)
  else if step = 180 then (0, r .T_TW_CIRC)
  else if step = 181 then (0, r .VTANKK / flow * 5)
  else if step = 182 then (r .LL_TK, 0)
  else if step = 183 then (0, r .VTANKW / flow * 5)
  else if step = 184 then (r .LL_TW, 0)
  else if step = 185 then (r .V_CLEAN_TS, 0)
  else if step = 186 then (r .V_CLEAN_TK, 0)
  else if step = 187 then (r .V_CLEAN_TW, 0)
  else if step = 188 then (0, r .T_TW_DRAIN)
  else (0, 0)

/-- The end of `SCInitPumping` (6289-6295, 6383-6421): `P_ZAD_FLOW`, `P_VRAB`, `P_MAX_OPER_TM`; `pumped`: `from >= 0`. -/
def scInit (r : Sc → Rat) (pumped : Bool) (step : Int) : Rat × Rat × Rat :=
  let flow := if r .FLOW = 0 then 10 else r .FLOW
  let (v, t) := scAmount r flow step
  let flow := if pumped then flow else -1
  (flow, v, if t = 0 then 5 * v / flow else t)

/-- What `SCPumping` reads: work time of `TMR_OP_TIME`, litres of the counter, `LWL`, `LSL`, `LKL`. -/
structure ScEnv where
  work : Nat
  litres : Rat
  lwl : Bool
  lsl : Bool
  lkl : Bool

/-- `timeIsOut` (6640-6647). -/
def timeIsOut (e : ScEnv) (limit : Rat) : Bool := decide ((e.work : Rat) ≥ limit * 1000 ∧ limit > 0)

/-- `volumePassed` (6649-6656). -/
def volumePassed (e : ScEnv) (vol : Rat) : Bool := decide (vol > 0 ∧ e.litres ≥ vol)

/-- The end of a step in `SCPumping` (6585-6632). -/
def scEnds (e : ScEnv) (step : Int) (vol limit : Rat) : Bool :=
  if step = 151 ∨ step = 169 ∨ step = 183 then !e.lwl
  else if step = 152 ∨ step = 157 ∨ step = 164 ∨ step = 170 ∨ step = 176 ∨ step = 182 ∨ step = 184 then
    volumePassed e vol || timeIsOut e limit
  else if step = 153 ∨ step = 160 ∨ step = 167 ∨ step = 173 ∨ step = 179 ∨ step = 185 ∨ step = 186 ∨ step = 187 then
    volumePassed e vol
  else if step = 154 ∨ step = 155 ∨ step = 161 ∨ step = 162 ∨ step = 168 ∨ step = 174 ∨ step = 180 ∨ step = 188 then
    timeIsOut e limit
  else if step = 156 ∨ step = 175 then !e.lsl
  else if step = 163 ∨ step = 181 then !e.lkl
  else false

end Ptusa.CipSet
