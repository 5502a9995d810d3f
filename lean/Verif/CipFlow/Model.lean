import Verif.Cip.Model
import Verif.Time.Model

/-!
# Where the liquids of a washing line go

Model of the inside of the steps of `cipline_tech_object` (PAC/common/cip_tech_def.cpp): the valves `V00` to `V13`, the
pump and the return pump of one line.  The order of the steps is that of `Ptusa.Cip`.

Valves of a line: `V00` fills its small tank with water; the pump takes from the small tank (`V01`), the tank of acid
(`V02`), of caustic (`V03`), of used water (`V04`); it feeds the washed object (`V05`) or returns inside the station
(`V06`); the return goes to the tank of used water (`V07`), of acid (`V08`), of caustic (`V09`), to the small tank
(`V10`), to the drain (`V11`), to the neutralisation (`V12`); `V13` is the steam of the heater.

Not modelled: Lua functions that replace or extend those of the line, the flow and temperature controllers, signals to
the washed object, statistics, the drain valves of the tanks, dosing pumps (see `Ptusa.Cip`).  The readings of level
sensors, of timers and of the counter are given by the events.  A valve does at once what it was told (see C47 for
valves that close late).
-/
namespace Ptusa.CipFlow

open Ptusa.Cip (Outcome StepErr Opt)

/-- Milliseconds of the clock. -/
abbrev Ms := BitVec 64

/-! ## Valves -/

/-- The valves of the line; `wmg`, `kmg`, `smg` are `VWMG`, `VKMG`, `VSMG`, the washing heads in the tanks of used water,
acid and caustic. -/
structure V where
  v00 : Bool := false
  v01 : Bool := false
  v02 : Bool := false
  v03 : Bool := false
  v04 : Bool := false
  v05 : Bool := false
  v06 : Bool := false
  v07 : Bool := false
  v08 : Bool := false
  v09 : Bool := false
  v10 : Bool := false
  v11 : Bool := false
  v12 : Bool := false
  v13 : Bool := false
  wmg : Bool := false
  kmg : Bool := false
  smg : Bool := false
  deriving DecidableEq, Repr

/-- What the pump takes: `WATER` (and `SANITIZER`, which is handled the same), `TANK_W`, `TANK_K`, `TANK_S`. -/
inductive Src where
  | water | tankW | tankK | tankS
  deriving DecidableEq, Repr

/-- Where the return goes: `KANAL`, `TANK_W`, `TANK_K`, `TANK_S`. -/
inductive Dest where
  | drain | tankW | tankK | tankS
  deriving DecidableEq, Repr

/-- The first switch of `_InitToObject` and `_InitFromObject` (cip_tech_def.cpp lines 4133-4164 and 4346-4380). -/
def V.take (v : V) : Src → V
  | .water => { v with v00 := true, v01 := true, v02 := false, v03 := false, v04 := false }
  | .tankW => { v with v00 := false, v01 := false, v02 := false, v03 := false, v04 := true }
  | .tankK => { v with v00 := false, v01 := false, v02 := true, v03 := false, v04 := false }
  | .tankS => { v with v00 := false, v01 := false, v02 := false, v03 := true, v04 := false }

/-- The switch over `where` of `_InitFromObject`, `_InitOporCIP`, `_InitOporCirc` (cip_tech_def.cpp lines 4381-4416,
4523-4560, 4656-4693). -/
def V.give (v : V) : Dest → V
  | .drain => { v with v07 := false, v08 := false, v09 := false, v10 := false, v11 := true, v12 := false }
  | .tankW => { v with v07 := true, v08 := false, v09 := false, v10 := false, v11 := false, v12 := false }
  | .tankK => { v with v07 := false, v08 := true, v09 := false, v10 := false, v11 := false, v12 := false }
  | .tankS => { v with v07 := false, v08 := false, v09 := true, v10 := false, v11 := false, v12 := false }

/-! ## Steps -/

/-- What is circulated: water (also `HOT_WATER` and `SANITIZER`), `SHCH`, `KISL`. -/
inductive Medium where
  | water | caustic | acid
  deriving DecidableEq, Repr

/-- The tank a solution is prepared in: `TANK_S` or `TANK_K`. -/
inductive Tank where
  | caustic | acid
  deriving DecidableEq, Repr

def Tank.src : Tank → Src | .caustic => .tankS | .acid => .tankK
def Tank.dest : Tank → Dest | .caustic => .tankS | .acid => .tankK

/-- The arguments `where` of the self-cleaning. -/
inductive ScDest where
  | drain | neutro | tankW | tankWmg | tankK | tankKmg | tankS | tankSmg | none
  deriving DecidableEq, Repr

/-- The functions behind the steps. -/
inductive Op where
  | first
  | toObject (s : Src) (d : Dest)
  | fromObject (s : Src) (d : Dest)
  | emptyObject (d : Dest)
  | fillWater
  | fillReturn
  | circ (m : Medium)
  | emptyCirc (d : Dest)
  | dose
  | fillRR (t : Tank)
  | circRR (t : Tank)
  | checkConc (t : Tank)
  | addRR (t : Tank)
  | rinseRR (t : Tank)
  | pumping (s : Option Src) (d : ScDest)
  | custom
  | last
  deriving DecidableEq, Repr

/-- The tables of `_InitStep` and `_DoStep` (cip_tech_def.cpp lines 2287-2436 and 2741-2893).  `noTank`: the tank of used
water is not used (`dont_use_water_tank` or `P_DONT_USE_WATER_TANK`).  `acid`: the program has an acid part.  `rinse`:
`clean_water_rinsing_return`, which the program sets to the drain or to the tank of used water (lines 271, 1336,
1342, 3121).  `init`: the table of `_InitStep`, which differs in step 176; it also has steps 177 and 178, which are not
reached. -/
def op (init noTank acid rinse : Bool) (step : Int) : Option Op :=
  let dest : Dest := if noTank then .drain else .tankW
  let src : Src := if noTank then .water else .tankW
  let pr : Src := if acid && !noTank then .tankW else .water
  let clean : Dest := if rinse then .drain else .tankW
  if step = 0 then some .first
  else if step = 5 then some (.toObject src .drain)
  else if step = 6 then some (.emptyObject .drain)
  else if step = 7 then some (.fromObject src .drain)
  else if step = 8 then some (.toObject src .drain)
  else if step = 9 then some (.emptyObject .drain)
  else if step = 10 then some .fillReturn
  else if step = 11 then some (.circ .water)
  else if step = 12 then some (.emptyCirc .drain)
  else if step = 13 then some .fillReturn
  else if step = 14 then some (.toObject src .drain)
  else if step = 15 then some (.emptyCirc .drain)
  else if step = 16 then some (.emptyCirc .drain)
  else if step = 22 then some (.toObject .tankS .drain)
  else if step = 23 then some (.emptyObject .drain)
  else if step = 24 then some (.fromObject .tankS .drain)
  else if step = 26 then some .fillReturn
  else if step = 28 then some (.circ .caustic)
  else if step = 29 then some (.emptyCirc .tankS)
  else if step = 31 then some .fillWater
  else if step = 33 then some (.toObject pr .tankS)
  else if step = 34 then some (.emptyObject .tankS)
  else if step = 35 then some (.fromObject pr .tankS)
  else if step = 37 then some (.toObject pr dest)
  else if step = 39 then some (.emptyCirc dest)
  else if step = 40 then some (.emptyObject dest)
  else if step = 42 then some (.toObject .tankK .drain)
  else if step = 43 then some (.emptyObject .drain)
  else if step = 44 then some (.fromObject .tankK .drain)
  else if step = 46 then some .fillReturn
  else if step = 48 then some (.circ .acid)
  else if step = 49 then some (.emptyCirc .tankK)
  else if step = 53 then some (.toObject .water .tankK)
  else if step = 54 then some (.emptyObject .tankK)
  else if step = 55 then some (.fromObject .water .tankK)
  else if step = 57 then some (.toObject .water dest)
  else if step = 59 then some (.emptyCirc dest)
  else if step = 60 then some (.emptyObject dest)
  else if step = 61 then some .fillWater
  else if step = 62 then some (.toObject .water dest)
  else if step = 63 then some (.emptyObject dest)
  else if step = 64 then some (.fromObject .water dest)
  else if step = 65 then some .fillWater
  else if step = 66 then some (.circ .water)
  else if step = 67 then some (.emptyCirc dest)
  else if step = 71 then some .fillWater
  else if step = 72 then some (.toObject .water dest)
  else if step = 73 then some (.emptyObject dest)
  else if step = 74 then some (.fromObject .water dest)
  else if step = 75 then some .fillWater
  else if step = 76 then some .dose
  else if step = 77 then some (.circ .water)
  else if step = 78 then some (.emptyCirc .drain)
  else if step = 79 then some (.emptyObject .drain)
  else if step = 81 then some .fillWater
  else if step = 83 then some (.toObject .water clean)
  else if step = 84 then some (.emptyObject clean)
  else if step = 85 then some (.fromObject .water clean)
  else if step = 86 then some (.toObject .water clean)
  else if step = 91 then some (.emptyObject clean)
  else if step = 105 then some (.fillRR .caustic)
  else if step = 106 then some (.circRR .caustic)
  else if step = 108 then some (.checkConc .caustic)
  else if step = 109 then some (.addRR .caustic)
  else if step = 111 then some (.rinseRR .caustic)
  else if step = 115 then some (.fillRR .acid)
  else if step = 116 then some (.circRR .acid)
  else if step = 118 then some (.checkConc .acid)
  else if step = 119 then some (.addRR .acid)
  else if step = 121 then some (.rinseRR .acid)
  else if step = 151 ∨ step = 152 then some (.pumping (some .tankW) .drain)
  else if step = 153 then some (.pumping (some .water) .tankWmg)
  else if step = 154 then some (.pumping none .none)
  else if step = 155 then some (.pumping (some .tankS) .tankS)
  else if step = 156 ∨ step = 157 then some (.pumping (some .tankS) .tankWmg)
  else if step = 160 then some (.pumping (some .water) .tankS)
  else if step = 161 then some (.pumping (some .tankW) .tankWmg)
  else if step = 162 then some (.pumping (some .tankK) .tankK)
  else if step = 163 ∨ step = 164 then some (.pumping (some .tankK) .tankSmg)
  else if step = 167 then some (.pumping (some .water) .tankKmg)
  else if step = 168 then some (.pumping (some .tankS) .tankSmg)
  else if step = 169 ∨ step = 170 then some (.pumping (some .tankW) .tankKmg)
  else if step = 173 then some (.pumping (some .water) .tankW)
  else if step = 174 then some (.pumping (some .tankK) .tankKmg)
  else if step = 175 then some (.pumping (some .tankS) .tankWmg)
  else if step = 176 then some (.pumping (some .tankS) (if init then .neutro else .tankWmg))
  else if step = 179 then some (.pumping (some .water) .tankSmg)
  else if step = 180 then some (.pumping (some .tankW) .tankWmg)
  else if step = 181 ∨ step = 182 then some (.pumping (some .tankK) .neutro)
  else if step = 183 ∨ step = 184 then some (.pumping (some .tankW) .neutro)
  else if step = 185 then some (.pumping (some .water) .tankSmg)
  else if step = 186 then some (.pumping (some .water) .tankKmg)
  else if step = 187 then some (.pumping (some .water) .tankWmg)
  else if step = 188 then some (.pumping none .none)
  else if step = 300 then some .custom
  else if step = 555 then some .last
  else none

/-! ## The line -/

/-- Settings of the line: `circ_podp_s`, `circ_podp_k`, `circ_podp_water` (the small tank is refilled during circulation),
`circ_medium_no_pump_stop`, `no_neutro`, `scoldvalves`. -/
structure Cfg where
  feedS : Bool := false
  feedK : Bool := false
  feedW : Bool := false
  noStop : Bool := false
  noNeutro : Bool := false
  oldValves : Bool := false
  deriving DecidableEq, Repr

/-- `cipline_tech_object`.  `np` is the pump, `npLast` is `nplaststate`, `npFlag` is `flagnplaststate`, `ret` is the
return pump, `over` is `ret_overrride`.  `sortAt`, `force`: `sort_delay` and `forcesortrr`.  `full`, `fullAt`, `empty`,
`emptyAt`: `tankfull`, `tankempty` and their timers.  `retOk`, `concOk`: `return_ok`, `concentration_ok`.  `fed`,
`fedAt`: `circ_was_feed`, `circ_max_timer`.  `backAt`: `circ_return_timer`.  `steamAt`: `steam_valve_delay`. -/
structure Line where
  state : Int := 0
  step : Int := 0
  prg : Int := -1
  prog : Nat := 0
  ncmd : Nat := 0
  blocked : Bool := false
  over : Bool := false
  v : V := {}
  np : Bool := false
  npLast : Bool := false
  npFlag : Bool := false
  ret : Bool := false
  sortAt : Ms := 0
  force : Bool := false
  full : Bool := false
  fullAt : Ms := 0
  empty : Bool := false
  emptyAt : Ms := 0
  retOk : Bool := false
  concOk : Bool := false
  fed : Bool := false
  fedAt : Ms := 0
  backAt : Ms := 0
  steamAt : Ms := 0
  deriving DecidableEq, Repr

/-- What a start of a wash meets (cip_tech_def.cpp lines 1854-1952): nothing happens; it is refused (wrong object,
conflict of valves, acid wash required); it begins, for a car wash with the first part of the program. -/
inductive Start where
  | no | wrongObject | conflict | acidDue
  | go (car : Bool)
  deriving DecidableEq, Repr

/-- What the outside does in a cycle.  `line`: `isLine()`.  `noTank`, `rinse`: see `op`.  `lh`, `lm`, `ll`: the levels of
the small tank; `lwh`, `lsh`, `lkh`: the tank of used water, of caustic, of acid is full; `lsl`, `lkl`: the tank of
caustic, of acid is not empty; `waterEmpty`: `waterTankIsEmpty()`.  `cS`, `cK`: the concentration of caustic and of acid in
the return (`GetConc`); `cminS` to `tol` are the parameters `P_CMIN_S`, `P_CKANAL_S`, `P_CZAD_S`, the same of acid, and
`P_NAV_TOLERANCE`.  `vol`: the counter reached `P_VRAB`.  `fl`: there is a flow in the return.  `retUp`, `concUp`: the
timers `TMR_RETURN`, `TMR_CHK_CONC` have expired, if started.  `fin`: the other conditions for the end of the step hold.
`wait`: the signal `dev_os_can_continue` of the object is awaited in a rinse.  `err`: the result of `CheckErr`.  `noLiquid`:
`no_liquid_is_warning`.  `mayFeed`: `circ_podp_count < circ_podp_max_count`.  `hold`: `none` when the object has no
signals to hold the pump, else whether it may run.  `heat`: the heater is controlled and its output is above 1.  `flow`:
the flow is above `P_R_NO_FLOW`.  `retWish`: what the step wants of the return pump where it depends on quantities.
`dry`: the return pump has a level sensor that has been off for too long.  `start`, `conflict`, `objErr`, `feedback`,
`endNow`, `opt`: as in `Ptusa.Cip`. -/
structure Env where
  now : Ms := 0
  line : Bool := false
  noTank : Bool := false
  rinse : Bool := false
  lh : Bool := false
  lm : Bool := false
  ll : Bool := false
  lwh : Bool := false
  lsh : Bool := false
  lsl : Bool := true
  lkh : Bool := false
  lkl : Bool := true
  waterEmpty : Bool := false
  cS : Rat := 0
  cK : Rat := 0
  cminS : Rat := 0
  cdrainS : Rat := 0
  czadS : Rat := 0
  cminK : Rat := 0
  cdrainK : Rat := 0
  czadK : Rat := 0
  tol : Rat := 0
  vol : Bool := false
  fl : Bool := false
  retUp : Bool := false
  concUp : Bool := false
  fin : Bool := false
  wait : Bool := false
  err : Option StepErr := none
  noLiquid : Bool := false
  mayFeed : Bool := false
  hold : Option Bool := none
  heat : Bool := false
  flow : Bool := false
  retWish : Bool := false
  dry : Bool := false
  start : Start := .no
  conflict : Bool := false
  objErr : Bool := false
  feedback : Bool := false
  endNow : Bool := false
  opt : Opt := {}

/-- `SetRet` (cip_tech_def.cpp lines 1722-1771). -/
def Line.setRet (l : Line) (e : Env) (on : Bool) : Line := if l.over then l else { l with ret := on && !e.dry }

/-- `NP->on()` and `NP->off()` with `nplaststate`. -/
def Line.pump (l : Line) (on : Bool) : Line := { l with np := on, npLast := on }

/-- `_StopDev` (cip_tech_def.cpp lines 1524-1608): the return valves stay as they are when the washed object failed.  The
washing heads are closed too when the line is that of the self-cleaning; for other lines they are closed anyway. -/
def Line.stopDev (l : Line) : Line :=
  let keep := decide (l.state = -20 ∨ l.state = -19)
  { l with
    over := false, np := false, npLast := false, ret := false
    v := { v07 := keep && l.v.v07, v08 := keep && l.v.v08, v09 := keep && l.v.v09
           v10 := keep && l.v.v10, v11 := keep && l.v.v11, v12 := keep && l.v.v12 } }

/-- `_Stop` (cip_tech_def.cpp lines 1610-1628). -/
def Line.stop (l : Line) : Line := { l.stopDev with state := 0 }

/-! ## The start of a step -/

/-- The suction of `SCInitPumping` (cip_tech_def.cpp lines 6077-6109). -/
def V.scTake (v : V) : Option Src → V
  | some .water => { v with v01 := true, v02 := false, v03 := false, v04 := false }
  | some .tankS => { v with v01 := false, v02 := false, v03 := true, v04 := false }
  | some .tankK => { v with v01 := false, v02 := true, v03 := false, v04 := false }
  | some .tankW => { v with v01 := false, v02 := false, v03 := false, v04 := true }
  | none => { v with v01 := false, v02 := false, v03 := false, v04 := false }

/-- The destination of `SCInitPumping` (cip_tech_def.cpp lines 6111-6260). -/
def V.scGive (v : V) (c : Cfg) (d : ScDest) : V :=
  let z : V := { v with v06 := true, v07 := false, v08 := false, v09 := false, v10 := false, v11 := false, v12 := false
                        wmg := false, kmg := false, smg := false }
  match d with
  | .drain => { z with v11 := true }
  | .neutro => if c.noNeutro then { z with v11 := true, v12 := v.v12 } else { z with v12 := true }
  | .tankW => { z with v07 := true }
  | .tankWmg => { z with v07 := !c.oldValves, wmg := true }
  | .tankK => { z with v08 := true }
  | .tankKmg => { z with v08 := !c.oldValves, kmg := true }
  | .tankS => { z with v09 := true }
  | .tankSmg => { z with v09 := !c.oldValves, smg := true }
  | .none => { z with v06 := false }

/-- The functions `Init…` of the steps.  `_InitToObject` (cip_tech_def.cpp lines 4117-4333), `_InitFromObject` (4335-4504),
`_InitOporCIP` (4506-4581), `_InitFilCirc` (4583-4641), `_InitCirc` (4723-4831), `_InitOporCirc` (4643-4721),
`_InitDoseRR` (5614-5656), `InitFilRR` to `InitOpolRR` (3614-3925), `SCInitPumping` (6072-6427); cases 0, 300 and 555 of
`_InitStep` (2311-2318, 2433-2475).  `again`: the step is resumed (`not_first_call`). -/
def Line.initOp (l : Line) (c : Cfg) (e : Env) (again : Bool) : Op → Line
  | .first =>
    let l := l.stopDev
    { l with v := { l.v with v00 := l.v.v00 || !e.lm } }
  | .toObject s d =>
    let v := { l.v with v05 := true, v06 := false }.take s
    ({ l with v := match d with
        | .tankW => if e.lwh then v.give .drain else v.give .tankW
        | d => v.give d } : Line).pump true
  | .fromObject s d =>
    let l := if again then l else { l with retOk := false, concOk := false }
    (({ l with v := ({ l.v with v05 := true, v06 := false }.take s).give d } : Line).pump true).setRet e false
  | .emptyObject d =>
    if e.line then l
    else ({ l with v := { l.v with
      v05 := true, v06 := false, v00 := false, v01 := false, v02 := false, v03 := false, v04 := false
      v13 := false }.give d } : Line).pump false
  | .fillWater =>
    (({ l with v := { l.v with v00 := true, v01 := true, v10 := false, v11 := true, v12 := false } } :
      Line).pump false).setRet e false
  | .fillReturn =>
    (({ l with v := { l.v with
        v00 := false, v01 := true, v05 := true, v06 := false, v07 := false, v08 := false, v09 := false, v10 := true
        v11 := false, v12 := false
        v03 := l.v.v03 || l.step == 26
        v02 := l.v.v02 || l.step == 46 } } : Line).pump true).setRet e true
  | .circ m =>
    let tank := (e.opt.circS && l.step == 28) || (e.opt.circK && l.step == 48)
    let v := { l.v with
      v01 := !tank, v10 := !tank, v00 := false, v02 := false, v03 := false, v04 := false, v05 := true, v06 := false
      v07 := false, v08 := false, v09 := false, v11 := false, v12 := false }
    (({ l with
        fed := false
        v := match m with
          | .water => v
          | .caustic => if e.opt.circS then { v with v03 := true, v09 := true } else v
          | .acid => if e.opt.circK then { v with v02 := true, v08 := true } else v } : Line).pump true).setRet e true
  | .emptyCirc d =>
    (({ l with v := { l.v with
        v00 := false, v01 := true, v02 := false, v03 := false, v04 := false, v05 := true, v06 := false }.give d } :
      Line).pump true).setRet e true
  | .dose =>
    let l := l.stopDev
    (({ l with v := { l.v with
        v01 := true, v10 := true, v00 := false, v02 := false, v03 := false, v04 := false, v05 := true, v06 := false
        v07 := false, v08 := false, v09 := false, v11 := false, v12 := false } } : Line).pump true).setRet e true
  | .fillRR t =>
    ({ l with v := ({ l.v with v05 := false, v06 := true, v13 := true }.take .water).give t.dest } : Line).pump true
  | .circRR t | .checkConc t | .addRR t =>
    ({ l with v := ({ l.v with v05 := false, v06 := true }.take t.src).give t.dest } : Line).pump true
  | .rinseRR t =>
    ({ l with v := ({ l.v with v05 := false, v06 := true }.take .water).give t.dest } : Line).pump true
  | .pumping s d =>
    ({ l with v := ({ l.v with v05 := false }.scTake s).scGive c d } : Line).pump s.isSome
  | .custom => l
  | .last =>
    let l := l.stopDev
    { l with v := { l.v with v11 := true } }

/-- `_InitStep` (cip_tech_def.cpp lines 2243-2478) for the current step. -/
def Line.initStep (l : Line) (c : Cfg) (e : Env) (again : Bool) : Line :=
  let l := { l with over := false, empty := false, emptyAt := e.now, full := false, fullAt := e.now
                    sortAt := e.now, force := true }
  match op true e.noTank (l.prog.testBit 4) e.rinse l.step with
  | some o => l.initOp c e again o
  | none => l

/-! ## A cycle of a step -/

/-- The three ways of `SortRR`: tank, neutralisation, drain. -/
inductive Way where
  | tank | neutro | drain
  deriving DecidableEq, Repr

/-- The valves of a way of `SortRR` (cip_tech_def.cpp lines 3479-3503 and 3535-3559, with lines 3446, 3450 and 3506). -/
def V.sort (v : V) (c : Cfg) (t : Tank) (w : Way) : V :=
  let z : V := { v with v07 := false, v08 := false, v09 := false, v10 := false, v11 := false, v12 := false }
  match w with
  | .drain => { z with v11 := true }
  | .neutro => { z with v11 := c.noNeutro, v12 := !c.noNeutro }
  | .tank => match t with | .caustic => { z with v09 := true } | .acid => { z with v08 := true }

/-- Choice of the way for concentration `x` (cip_tech_def.cpp lines 3465-3478, 3521-3534). -/
def way (x cmin cdrain : Rat) (full : Bool) : Way :=
  if cmin ≤ x ∧ full = false then .tank else if cdrain ≤ x then .neutro else .drain

/-- The level and the parameters `SortRR` uses for a tank. -/
def Env.high (e : Env) : Tank → Bool | .caustic => e.lsh | .acid => e.lkh
def Env.low (e : Env) : Tank → Bool | .caustic => e.lsl | .acid => e.lkl
def Env.conc (e : Env) : Tank → Rat | .caustic => e.cS | .acid => e.cK
def Env.cmin (e : Env) : Tank → Rat | .caustic => e.cminS | .acid => e.cminK
def Env.cdrain (e : Env) : Tank → Rat | .caustic => e.cdrainS | .acid => e.cdrainK
def Env.czad (e : Env) : Tank → Rat | .caustic => e.czadS | .acid => e.czadK

/-- `SortRR` (cip_tech_def.cpp lines 3431-3561) with `SORT_SWITCH_DELAY` of 3000 ms. -/
def Line.sortRR (l : Line) (c : Cfg) (e : Env) (t : Tank) (forceTank : Bool) : Line :=
  if Time.deltaMs e.now l.sortAt < 3000 ∧ l.force = false then l
  else
    let up := e.high t && !forceTank
    let full := l.full || up
    let fullAt := if up then e.now else l.fullAt
    let full := full && !decide (20000 < Time.deltaMs e.now fullAt)
    { l with
      sortAt := e.now, force := false, full := full, fullAt := fullAt
      v := l.v.sort c t (way (e.conc t) (e.cmin t) (e.cdrain t) full) }

/-- `if (!LM->is_active()) V00->on(); if (LH->is_active()) V00->instant_off();` -/
def V.refill (v : V) (e : Env) : V := { v with v00 := (v.v00 || !e.lm) && !e.lh }

/-- The case `TANK_W` of the switch over the source in `_ToObject` and `_FromObject` (cip_tech_def.cpp lines 4871-4904 and
5118-5151). -/
def Line.fromWaterTank (l : Line) (e : Env) : Line :=
  let l := if e.waterEmpty then { l with empty := true, emptyAt := e.now }
    else { l with empty := l.empty && !decide (60000 < Time.deltaMs e.now l.emptyAt) }
  { l with v := if l.empty then { l.v with v04 := false, v01 := true }.refill e
                else { l.v with v04 := true, v00 := false, v01 := false } }

/-- The case `TANK_W` of the switch over the destination (cip_tech_def.cpp lines 4929-4966 and 5178-5215).  `same`: the
water is taken from the tank of used water (`_ToObject` only). -/
def Line.toWaterTank (l : Line) (e : Env) (same : Bool) : Line :=
  let full := l.full || e.lwh
  let fullAt := if e.lwh then e.now else l.fullAt
  let full := full && !(decide (60000 < Time.deltaMs e.now fullAt) && !e.lwh)
  { l with full := full, fullAt := fullAt, v := if full || same then l.v.give .drain else l.v.give .tankW }

/-- The switch over the source in `_ToObject` and `_FromObject` (cip_tech_def.cpp lines 4857-4925 and 5101-5174): the line
and an error when the tank is empty. -/
def Line.source (l : Line) (e : Env) : Src → Line × Option StepErr
  | .water => ({ l with v := l.v.refill e }, none)
  | .tankW => (l.fromWaterTank e, none)
  | .tankK => (l, if e.lkl then none else some .noAcid)
  | .tankS => (l, if e.lsl then none else some .noAlkaline)

/-- The switch over the destination in `_ToObject` and `_FromObject` (cip_tech_def.cpp lines 4927-4976 and 5176-5222). -/
def Line.dest (l : Line) (c : Cfg) (e : Env) (same : Bool) : Dest → Line
  | .drain => l
  | .tankW => l.toWaterTank e same
  | .tankK => l.sortRR c e .acid false
  | .tankS => l.sortRR c e .caustic false

/-- `_ToObject` (cip_tech_def.cpp lines 4833-5005). -/
def Line.toObject (l : Line) (c : Cfg) (e : Env) (s : Src) (d : Dest) : Line × Outcome :=
  let wish := if l.step = 5 ∨ l.step = 22 ∨ l.step = 42 ∨ l.step = 62 ∨ l.step = 72 ∨ l.step = 83
    then e.retWish else true
  match (l.setRet e wish).source e s with
  | (l, some x) => (l, .fail x)
  | (l, none) =>
    (l.dest c e (s == .tankW) d, if e.wait then .go else if e.vol || e.fin then .done 1 else .go)

/-- What `_FromObject` awaits in the return (cip_tech_def.cpp lines 5036-5061): a medium that must be there (`true`) or
must not be there any more. -/
def need (s : Src) (d : Dest) : Option (Tank × Bool) :=
  match d, s with
  | .tankK, _ => some (.acid, false)
  | .tankS, _ => some (.caustic, false)
  | _, .tankK => some (.acid, true)
  | _, .tankS => some (.caustic, true)
  | _, _ => none

/-- The comparison of the concentration with `P_CKANAL_K` or `P_CKANAL_S` (cip_tech_def.cpp lines 5062-5096). -/
def Env.fits (e : Env) : Option (Tank × Bool) → Bool
  | none => true
  | some (t, true) => decide (e.cdrain t ≤ e.conc t)
  | some (t, false) => decide (e.conc t ≤ e.cdrain t)

/-- The tests of the return and of its concentration in `_FromObject` (cip_tech_def.cpp lines 5020-5098): the line, and
an outcome when the function returns there. -/
def Line.checkReturn (l : Line) (e : Env) (n : Option (Tank × Bool)) : Line × Option Outcome :=
  if e.vol then
    let l := { l with retOk := l.retOk || e.fl }
    if l.retOk = false ∧ e.retUp then (l, some (.fail .noReturn))
    else if e.fits n = false ∧ e.concUp then
      (l, some (.fail (match n with | some (_, true) => .noConc | _ => .isConc)))
    else
      let l := { l with concOk := e.fits n }
      (l, if l.retOk && l.concOk then some (.done 1) else none)
  else (l, none)

/-- The sorting in the switch over the source in `_FromObject` (cip_tech_def.cpp lines 5161, 5172). -/
def Line.resort (l : Line) (c : Cfg) (e : Env) : Src → Line
  | .tankK => l.sortRR c e .acid false
  | .tankS => l.sortRR c e .caustic false
  | _ => l

/-- `_FromObject` (cip_tech_def.cpp lines 5007-5225). -/
def Line.fromObject (l : Line) (c : Cfg) (e : Env) (s : Src) (d : Dest) : Line × Outcome :=
  let l := if e.retWish then l.setRet e true else l
  match l.checkReturn e (need s d) with
  | (l, some o) => (l, o)
  | (l, none) =>
    match l.source e s with
    | (l, some x) => (l, .fail x)
    | (l, none) => ((l.resort c e s).dest c e false d, .go)

/-- `_OporCIP` (cip_tech_def.cpp lines 5227-5321). -/
def Line.emptyObject (l : Line) (c : Cfg) (e : Env) (d : Dest) : Line × Outcome :=
  if e.line then (l, .done 1)
  else
    let l := l.setRet e true
    (if d = .tankW then { l with v := if e.lwh then l.v.give .drain else l.v.give .tankW } else l.dest c e false d,
      if e.fin then .done 1 else .go)

/-- The refilling of the small tank during circulation (cip_tech_def.cpp lines 5395-5415, 5449-5469, 5504-5524); `on` is
the valve used: its new state, `circ_was_feed` and `circ_max_timer`. -/
def feed (e : Env) (v fed : Bool) (fedAt : Ms) : Bool × Bool × Ms :=
  let open' := !e.lm && !e.ll && !e.lh && e.mayFeed
  let fedAt := if open' && !fed then e.now else fedAt
  let v := v || open'
  let fed := fed || open'
  if e.lm || e.lh || (fed && decide (60000 < Time.deltaMs e.now fedAt)) then (false, false, fedAt) else (v, fed, fedAt)

/-- The switching of the return during circulation when the pump is not stopped (cip_tech_def.cpp lines 5416-5446,
5470-5500). -/
def Line.noStop (l : Line) (e : Env) (t : Tank) : Line :=
  if e.lh then
    if 1000 < Time.deltaMs e.now l.backAt then
      { l with backAt := e.now, v := l.v.give t.dest }
    else l
  else
    { l with
      backAt := e.now
      v := if e.lm then l.v
        else { l.v with v07 := false, v08 := false, v09 := false, v10 := true, v11 := false, v12 := false } }

/-- The switch over the medium in `_Circ` (cip_tech_def.cpp lines 5391-5530). -/
def Line.circMedium (l : Line) (c : Cfg) (e : Env) : Medium → Line
  | .acid =>
    let f := feed e l.v.v02 l.fed l.fedAt
    let l := if c.feedK then { l with v := { l.v with v02 := f.1 }, fed := f.2.1, fedAt := f.2.2 } else l
    if c.noStop then l.noStop e .acid else l
  | .caustic =>
    let f := feed e l.v.v03 l.fed l.fedAt
    let l := if c.feedS then { l with v := { l.v with v03 := f.1 }, fed := f.2.1, fedAt := f.2.2 } else l
    if c.noStop then l.noStop e .caustic else l
  | .water =>
    let f := feed e l.v.v00 l.fed l.fedAt
    if c.feedW then { l with v := { l.v with v00 := f.1 }, fed := f.2.1, fedAt := f.2.2 } else l

/-- `_Circ` (cip_tech_def.cpp lines 5337-5576); the return pump is left to the events. -/
def Line.circ (l : Line) (c : Cfg) (e : Env) (m : Medium) : Line × Outcome :=
  (({ l with v := { l.v with v06 := false } }.setRet e e.retWish).circMedium c e m, if e.fin then .done 1 else .go)

/-- The neutralisation, or the drain when there is none, instead of a full tank. -/
def V.overflow (v : V) (c : Cfg) : V := { v with v11 := c.noNeutro, v12 := v.v12 || !c.noNeutro }

/-- The switch over `where` of `SCPumping` (cip_tech_def.cpp lines 6463-6585). -/
def V.scCycle (v : V) (c : Cfg) (e : Env) (s : Option Src) : ScDest → V
  | .tankW => if e.lwh ∧ s ≠ some .tankW then { v with v07 := false, wmg := false }.overflow c
      else { v with v07 := true, wmg := false, v11 := false, v12 := false }
  | .tankWmg => if e.lwh ∧ s ≠ some .tankW then { v with v07 := false, wmg := false }.overflow c
      else { v with v07 := !c.oldValves, wmg := true, v11 := false, v12 := false }
  | .tankK => if e.lkh ∧ s ≠ some .tankK then { v with v08 := false, kmg := false }.overflow c
      else { v with v08 := true, kmg := false, v11 := false, v12 := false }
  | .tankKmg => if e.lkh ∧ s ≠ some .tankK then { v with v08 := false, kmg := false }.overflow c
      else { v with v08 := !c.oldValves, kmg := true, v11 := false, v12 := false }
  | .tankS => if e.lsh ∧ s ≠ some .tankS then { v with v09 := false, smg := false }.overflow c
      else { v with v09 := true, smg := false, v11 := false, v12 := false }
  | .tankSmg => if e.lsh ∧ s ≠ some .tankS then { v with v09 := false, smg := false }.overflow c
      else { v with v09 := !c.oldValves, smg := true, v11 := false, v12 := false }
  | _ => v

/-- `SCPumping` (cip_tech_def.cpp lines 6429-6638). -/
def Line.pumping (l : Line) (c : Cfg) (e : Env) (s : Option Src) (d : ScDest) : Line × Outcome :=
  let v := if s = some .water then { l.v with v00 := (l.v.v00 || !e.ll) && !(e.lm || e.lh) } else l.v
  ({ l with v := v.scCycle c e s d }, if e.fin then .done 1 else .go)

/-- The functions of the steps, called by `_DoStep` (cip_tech_def.cpp lines 2729-2893): besides those above `_FillCirc`
(5323-5335), `_OporCirc` (5578-5612), `_DoseRR` (5658-5679), `FilRR` to `OpolRR` (3927-4115). -/
def Line.doOp (l : Line) (c : Cfg) (e : Env) : Op → Line × Outcome
  | .first => (l, if e.lm then .done 1 else .go)
  | .toObject s d => l.toObject c e s d
  | .fromObject s d => l.fromObject c e s d
  | .emptyObject d => l.emptyObject c e d
  | .fillWater => (l, if e.vol || e.lh then .done 1 else .go)
  | .fillReturn => (l.setRet e true, if e.vol || e.lh then .done 1 else .go)
  | .circ m => l.circ c e m
  | .emptyCirc d =>
    let l := l.setRet e true
    (if d = .tankW then { l with v := { l.v with v07 := !e.lwh, v11 := e.lwh } } else l,
      if e.fin then .done 1 else .go)
  | .dose => (l.setRet e !e.lh, if e.fin then .done 1 else .go)
  | .fillRR t =>
    if e.fin || e.high t then (l, .done 1) else ({ l with v := l.v.refill e }, .go)
  | .circRR _ => (l, if e.fin then .done 1 else .go)
  | .checkConc t =>
    (l, if e.fin then (if e.czad t * (1 - e.tol / 100) ≤ e.conc t then .done 1 else .done 2) else .go)
  | .addRR _ => (l, if e.fin then .done 1 else if e.noLiquid then .fail .possibleNoMedium else .go)
  | .rinseRR t =>
    let l := l.sortRR c e t true
    if e.conc t < e.cdrain t ∧ e.concUp then (l, .done 1) else ({ l with v := l.v.refill e }, .go)
  | .pumping s d => l.pumping c e s d
  | .custom => (l, .go)
  | .last => (l, .go)

/-! ## Cycles and commands -/

/-- The pump is held by signals of the object (cip_tech_def.cpp lines 2533-2571, in `EvalPIDS`). -/
def Line.holdPump (l : Line) (e : Env) : Line :=
  match e.hold with
  | none => l
  | some false => { l with npFlag := true, np := false }
  | some true => if l.npFlag && l.npLast then { l with np := true, npFlag := false } else l

/-- The steam valve in `EvalPIDS` (cip_tech_def.cpp lines 2586-2597); `STEAM_VALVE_MIN_DELAY` is 1200 ms. -/
def Line.steam (l : Line) (e : Env) : Line :=
  if e.heat && e.flow && l.np then
    { l with v := { l.v with v13 := l.v.v13 || decide (1200 < Time.deltaMs e.now l.steamAt) } }
  else { l with v := { l.v with v13 := false }, steamAt := e.now }

/-- `EvalPIDS` (cip_tech_def.cpp lines 2480-2599). -/
def Line.pids (l : Line) (e : Env) : Line := (l.holdPump e).steam e

/-- `_LoadProgram` (cip_tech_def.cpp lines 3148-3228). -/
def Line.load (l : Line) (o : Opt) : Line :=
  let prg := Cip.nextPrg l.prg l.prog
  { l with prg := prg, step := Cip.startStep prg l.prog o }

/-- `_GoToStep` (cip_tech_def.cpp lines 2041-2241) with the assignment of its result to the current step. -/
def Line.goTo (l : Line) (param : Int) (o : Opt) : Line :=
  match Cip.within l.step param l.prog o with
  | some s => { l with step := s }
  | none => l.load o

/-- `EvalBlock` (cip_tech_def.cpp lines 1490-1522). -/
def Line.block (l : Line) : Line :=
  let l := if l.ncmd = Cip.cmdLock then { l with blocked := true, ncmd := 0 } else l
  let l := if l.ncmd = Cip.cmdUnlock then
      { l with blocked := false, state := if 0 < l.step then -1 else 0, ncmd := 0 } else l
  if l.blocked then
    let l := if 0 < l.state then l.stop else l
    ({ l with ncmd := 0, state := Cip.lockedState } : Line).stopDev
  else l

/-- `_DoStep` (cip_tech_def.cpp lines 2634-2893) for steps other than 555. -/
def Line.doStep (l : Line) (c : Cfg) (e : Env) : Line × Outcome :=
  match e.err with
  | some x => (l, .fail x)
  | none =>
    match op false e.noTank (l.prog.testBit 4) e.rinse l.step with
    | some o => l.doOp c e o
    | none => (l, .fail .unknownStep)

/-- The end of a wash in step 555 (cip_tech_def.cpp lines 2895-2931, 2983-3250). -/
def Line.finish (l : Line) : Line := { l.stop with step := 0, prg := -1, prog := 0 }

/-- `EvalPIDS` and `EvalCipInProgress` (cip_tech_def.cpp lines 751-759 and 2601-2632). -/
def Line.progress (l : Line) (c : Cfg) (e : Env) : Line :=
  let l := l.pids e
  if l.step = 555 then if e.endNow then l.finish else l
  else
    match l.doStep c e with
    | (l, .go) => if e.line = true ∧ l.step ≠ 0 then l.setRet e true else l
    | (l, .done p) =>
      let l' := l.goTo p e.opt
      if l'.step ≠ l.step then l'.initStep c e false else l'
    | (l, .fail x) => { ({ l with state := x.code } : Line).stop with state := x.code }

/-- The start of a wash (cip_tech_def.cpp lines 1854-1952); what it depends on is given by the event. -/
def Line.begin (l : Line) (c : Cfg) (e : Env) : Line :=
  match e.start with
  | .no => l
  | .wrongObject => { l with state := Cip.errWrongOs }
  | .conflict => { l with state := Cip.errConflict }
  | .acidDue => { l with state := Cip.errAcid }
  | .go car =>
    let l := { l with state := 1 }
    let l := if car then l.load e.opt else l
    l.initStep c e false

/-- `EvalCommands` (cip_tech_def.cpp lines 1773-2039); commands that do not change what is modelled are left out. -/
def Line.commands (l : Line) (c : Cfg) (e : Env) : Line :=
  if l.ncmd = Cip.cmdNext then
    if l.state ≠ 0 ∧ l.step ≠ 555 then ({ l.goTo 0 e.opt with state := 1 } : Line).initStep c e false else l
  else if l.ncmd = Cip.cmdPause then
    if 0 < l.state ∧ l.step ≠ 555 then { l.stop with state := -1 } else l
  else if l.ncmd = Cip.cmdReset then
    if l.state ≠ 0 then { ({ l.stop with step := 555 } : Line).initStep c e false with state := 1 }
    else { l with prog := 0 }
  else if l.ncmd = Cip.cmdEvaluate then
    if l.state < 0 then
      if e.conflict then l
      else if e.objErr then { l with state := Cip.errWrongOs }
      else if l.state ≠ Cip.errAcid then ({ l with state := 1 } : Line).initStep c e true else l
    else if l.state = 0 ∧ 0 < l.prog then l.begin c e
    else l
  else if l.ncmd = Cip.cmdRetOn then
    if l.state ≠ 0 then { ({ l with over := false } : Line).setRet e true with over := true } else l
  else if l.ncmd = Cip.cmdRetOff then
    if l.state ≠ 0 then { ({ l with over := false } : Line).setRet e false with over := true } else l
  else l

/-- `evaluate` (cip_tech_def.cpp lines 701-763) with `EvalCipInError` (2938-2981). -/
def Line.evaluate (l : Line) (c : Cfg) (e : Env) : Line :=
  let l := l.block
  if l.blocked then l
  else if l.ncmd ≠ 0 then { l.commands c e with ncmd := 0 }
  else if 0 < l.state then l.progress c e
  else if l.state < 0 ∧ e.feedback = true ∧ (l.state = -20 ∨ l.state = -19) then
    ({ l with state := 1 } : Line).initStep c e true
  else l

/-- What happens to the line: a command, a cycle, the choice of a program (at any time). -/
inductive Ev where
  | cmd (n : Nat)
  | cycle (e : Env)
  | program (p : Nat)

def Line.next (c : Cfg) (l : Line) : Ev → Line
  | .cmd n => { l with ncmd := n }
  | .cycle e => l.evaluate c e
  | .program p => { l with prog := p }

/-- The line after a history; it begins idle with everything closed. -/
def run (c : Cfg) (evs : List Ev) : Line := evs.foldl (Line.next c) {}

/-! ## Concentration -/

/-- `GetConc` (cip_tech_def.cpp lines 3563-3612) with exact arithmetic.  `q`, `tr`: the conductivity and the temperature in
the return; `alf`, `ms25`, `c25`: the parameters of the medium; `ms25w`: that of water. -/
def getConc (q tr alf ms25 c25 ms25w : Rat) : Rat :=
  let div := 1 + alf / 100 * (tr - 25)
  let x25 := q / (if div = 0 then 1 else div)
  let div := ms25w - ms25
  let x := c25 * (ms25 - x25) / (if div = 0 then 1 else div) + c25
  if x < 0 then 0 else x

end Ptusa.CipFlow
