import Mathlib.Algebra.Order.Field.Rat
import Mathlib.Logic.Function.Basic
import Mathlib.Data.Rat.Floor

/-!
# Washing lines of a station

Model of `cipline_tech_object` (PAC/common/cip_tech_def.cpp): commands, locking, the order of the steps and the devices
of the recipe (PAC/common/mcaRec.cpp).

Not modelled: the inside of the steps (what they do with valves and pumps, and when they end, is given by the events),
Lua functions that replace or extend the functions of the line, signals to the washed object, controllers, statistics,
the list of programs and the lists of media.  The values of a recipe are rational numbers (see C84 and C85 for their
storage) and the number of a program is a natural one.
-/
namespace Ptusa.Cip

/-! ## Order of the steps -/

/-- The loop of `getNexpPrg` from bit `i` down (cip_tech_def.cpp lines 49-56). -/
def nextBit (prg : Nat) : Nat → Int
  | 0 => if prg.testBit 0 then 0 else -1
  | i + 1 => if prg.testBit (i + 1) then ((i + 1 : Nat) : Int) else nextBit prg i

/-- `getNexpPrg` (cip_tech_def.cpp lines 36-61). -/
def nextPrg (cur : Int) (prg : Nat) : Int :=
  let tmp := if cur < 0 then 15 else cur - 1
  if 0 ≤ tmp ∧ tmp < 16 then nextBit prg tmp.toNat else -1

/-- What a change of the step reads besides the program: circulation over the tanks (`circ_tank_s`, `circ_tank_k`),
`disable_final_rinsing`, and whether the volumes `SCP_V_PROM_TS`, `_TK`, `_TW` of the self-cleaning are positive. -/
structure Opt where
  circS : Bool := false
  circK : Bool := false
  noFinal : Bool := false
  scS : Bool := false
  scK : Bool := false
  scW : Bool := false
  deriving DecidableEq, Repr

/-- The first step of a part of the program: the switch of `_LoadProgram` (cip_tech_def.cpp lines 3190-3227). -/
def startStep (prg : Int) (prog : Nat) (o : Opt) : Int :=
  if prg = 7 then 5
  else if prg = 6 then 10
  else if prg = 5 then 22
  else if prg = 4 then 42
  else if prg = 3 then 22
  else if prg = 2 then 61
  else if prg = 1 then 71
  else if prg = 0 then (if o.noFinal then 91 else if prog = 1 then 83 else 81)
  else if prg = 9 then 105
  else if prg = 8 then 115
  else if prg = 11 then 151
  else if prg = 10 then 300
  else 555

/-- The condition of a step of `_GoToStep` that has two successors (cip_tech_def.cpp lines 2058, 2069, 2090, 2108, 2140,
2153, 2199, 2208, 2217, 2226).  `KS_MASK` is 56, `(1 << PRG_K) + (1 << PRG_S) + (1 << PRG_S1)`. -/
def choice (cur : Int) (param : Int) (prog : Nat) (o : Opt) : Bool :=
  if cur = 16 then prog == 128
  else if cur = 24 then o.circS
  else if cur = 44 then o.circK
  else if cur = 61 then prog &&& 56 != 0
  else if cur = 108 ∨ cur = 118 then param == 1
  else if cur = 157 ∨ cur = 176 then o.scS
  else if cur = 164 then o.scK
  else if cur = 170 then o.scW
  else false

/-- Where `_GoToStep` goes (cip_tech_def.cpp lines 2041-2241) when the condition of the step is `b`: `none` when it calls
`LoadProgram`. -/
def succ (cur : Int) (b : Bool) : Option Int :=
  if cur = 0 then none
  else if cur = 5 then some 7
  else if cur = 6 ∨ cur = 7 then some (cur + 1)
  else if cur = 8 then some 16
  else if cur = 9 then none
  else if 10 ≤ cur ∧ cur ≤ 14 then some (cur + 1)
  else if cur = 15 then none
  else if cur = 16 then (if b then some 9 else none)
  else if cur = 22 ∨ cur = 23 then some (cur + 1)
  else if cur = 24 then (if b then some 28 else some 26)
  else if cur = 26 then some 28
  else if cur = 28 then some 29
  else if cur = 29 then some 31
  else if cur = 31 then some 33
  else if cur = 33 then some 34
  else if cur = 34 then some 35
  else if cur = 35 then some 37
  else if cur = 37 then some 39
  else if cur = 39 then some 40
  else if cur = 40 then none
  else if cur = 42 ∨ cur = 43 then some (cur + 1)
  else if cur = 44 then (if b then some 48 else some 46)
  else if cur = 46 then some 48
  else if cur = 48 then some 49
  else if cur = 49 then some 53
  else if cur = 53 then some 54
  else if cur = 54 then some 55
  else if cur = 55 then some 57
  else if cur = 57 then some 59
  else if cur = 59 then some 60
  else if cur = 60 then none
  else if cur = 61 then (if b then some 66 else some 62)
  else if 62 ≤ cur ∧ cur ≤ 66 then some (cur + 1)
  else if cur = 67 then none
  else if 71 ≤ cur ∧ cur ≤ 78 then some (cur + 1)
  else if cur = 79 then none
  else if cur = 81 then some 83
  else if 83 ≤ cur ∧ cur ≤ 85 then some (cur + 1)
  else if cur = 86 then some 91
  else if cur = 91 then none
  else if cur = 105 then some 106
  else if cur = 106 then some 108
  else if cur = 108 then (if b then some 111 else some 109)
  else if cur = 109 then some 106
  else if cur = 111 then none
  else if cur = 115 then some 116
  else if cur = 116 then some 118
  else if cur = 118 then (if b then some 121 else some 119)
  else if cur = 119 then some 116
  else if cur = 121 then none
  else if cur = 157 then (if b then some 160 else some 161)
  else if cur = 164 then (if b then some 167 else some 168)
  else if cur = 170 then (if b then some 173 else some 174)
  else if cur = 176 then (if b then some 179 else some 180)
  else if 151 ≤ cur ∧ cur ≤ 187 then some (cur + 1)
  else if cur = 188 then none
  else if cur = 300 then none
  else some (-2)

def within (cur : Int) (param : Int) (prog : Nat) (o : Opt) : Option Int := succ cur (choice cur param prog o)

/-- The steps the switches of `_InitStep` and `_DoStep` both
know (cip_tech_def.cpp lines 2303-2430 and 2729-2893). -/
def knownSteps : List Int :=
  [0, 5, 6, 7, 8, 9, 10, 11, 12, 13, 14, 15, 16, 22, 23, 24, 26, 28, 29, 31, 33, 34, 35, 37, 39, 40, 42, 43, 44, 46, 48,
    49, 53, 54, 55, 57, 59, 60, 61, 62, 63, 64, 65, 66, 67, 71, 72, 73, 74, 75, 76, 77, 78, 79, 81, 83, 84, 85, 86, 91,
    105, 106, 108, 109, 111, 115, 116, 118, 119, 121, 151, 152, 153, 154, 155, 156, 157, 160, 161, 162, 163, 164, 167,
    168, 169, 170, 173, 174, 175, 176, 179, 180, 181, 182, 183, 184, 185, 186, 187, 188, 300, 555]

/-! ## A line -/

/-- The devices of the line that its steps use: the pump `NP`, the return pump, the valves `V00` to `V13` and the dosing
pumps `NS`, `NK`. -/
structure Dev where
  pump : Bool := false
  ret : Bool := false
  v : Nat → Bool := fun _ => false
  ns : Bool := false
  nk : Bool := false

/-- `cipline_tech_object`.  `recipe` is `loadedRecipe` (`none` is −1), `val` are the values of the recipes of the line,
`prog` is `P_PROGRAM`, `conflict` is `valvesAreInConflict` and `over` is `ret_overrride`. -/
structure Line where
  state : Int := 0
  curstep : Int := 0
  curprg : Int := -1
  ncmd : Nat := 0
  blocked : Bool := false
  recipe : Option Nat := none
  prog : Nat := 0
  conflict : Bool := false
  over : Bool := false
  dev : Dev := {}
  val : Nat → Nat → Rat

/-- The errors `_CheckErr` and the steps return (cip_tech_def.cpp lines 3300-3429 and the functions of the steps;
cip_tech_def.h lines 214-237). -/
inductive StepErr where
  | unknownStep | possibleNoMedium | noAcid | noAlkaline | noReturn | noConc | isConc | wrongRet | pump | noFlow | air | os
  | cipObject | levelBachok | levelTankS | levelTankK | levelTankW | supplyTemp | returnTemp | concSensor | ret
  deriving DecidableEq, Repr

def StepErr.code : StepErr → Int
  | unknownStep => -2 | possibleNoMedium => -9 | noAcid => -10 | noAlkaline => -11 | noReturn => -12 | noConc => -13
  | isConc => -14 | wrongRet => -15 | pump => -16 | noFlow => -17 | air => -18 | os => -19 | cipObject => -20
  | levelBachok => -35 | levelTankS => -36 | levelTankK => -37 | levelTankW => -38 | supplyTemp => -39
  | returnTemp => -40 | concSensor => -41 | ret => -100

/-- `ERR_WRONG_OS_OR_RECIPE_ERROR`, `ERR_VALVES_ARE_IN_CONFLICT`, `ERR_ACID_WASH_REQUIRED` (cip_tech_def.h lines
227-229) and the state of a locked line (cip_tech_def.cpp line 1519). -/
def errWrongOs : Int := -30
def errConflict : Int := -31
def errAcid : Int := -32
def lockedState : Int := -1000

/-- Commands (cip_tech_def.h lines 159-182). -/
def cmdNext : Nat := 1
def cmdPause : Nat := 2
def cmdEvaluate : Nat := 3
def cmdReset : Nat := 4
def cmdLock : Nat := 10
def cmdUnlock : Nat := 11
def cmdRetOn : Nat := 30
def cmdRetOff : Nat := 31

/-- What a step does in a cycle: it goes on, it is over (with a result above 0), it failed. -/
inductive Outcome where
  | go
  | done (param : Int)
  | fail (e : StepErr)
  deriving DecidableEq, Repr

/-- What the outside does in a cycle.  `objErr`: `init_object_devices` fails.  `acidDue`: `no_acid_wash_max > 0` and the
object had more caustic washes than that.  `switches`: a switch of the car wash is on.  `out`: what the step returns.
`pump`, `ret`, `valves`: the devices after the step or after its initialisation.  `dry`: the return pump has a level
sensor that has been off for too long.  `isLine`: type of the washed object.  `levelM`: the sensor `LM`.  `endNow`: the
delay after the wash is over and the object agrees.  `feedback`: `P_RESUME_CIP_ON_SIGNAL` is set and all signals of the
object are on. -/
structure Env where
  objErr : Bool := false
  acidDue : Bool := false
  switches : Bool := false
  out : Outcome := .go
  pump : Bool := false
  ret : Bool := false
  valves : Nat → Bool := fun _ => false
  dry : Bool := false
  isLine : Bool := false
  levelM : Bool := false
  endNow : Bool := false
  feedback : Bool := false
  opt : Opt := {}

/-- `SetRet` (cip_tech_def.cpp lines 1722-1771). -/
def Line.setRet (l : Line) (on dry : Bool) : Line :=
  if l.over then l else { l with dev := { l.dev with ret := on && !dry } }

/-- `_StopDev` (cip_tech_def.cpp lines 1524-1608). -/
def Line.stopDev (l : Line) : Line :=
  { l with
    over := false
    dev := { l.dev with
      pump := false
      ret := false
      v := fun k => if (7 ≤ k ∧ k ≤ 12) ∧ (l.state = -20 ∨ l.state = -19) then l.dev.v k else false } }

/-- `_Stop` (cip_tech_def.cpp lines 1610-1628). -/
def Line.stop (l : Line) : Line :=
  { ({ l with dev := { l.dev with
        ns := l.dev.ns && !(l.curstep == 105 || l.curstep == 109)
        nk := l.dev.nk && !(l.curstep == 115 || l.curstep == 119) } } : Line).stopDev with state := 0 }

/-- `_InitStep` for the current step (cip_tech_def.cpp lines 2243-2478).  The dosing pumps are switched by the steps that
prepare a medium (lines 3614-3900). -/
def Line.initStep (l : Line) (e : Env) : Line :=
  let l := { l with over := false }
  if l.curstep = 0 then
    let l := l.stopDev
    { l with dev := { l.dev with v := fun k => if k = 0 ∧ e.levelM = false then true else l.dev.v k } }
  else if l.curstep = 555 then
    let l := l.stopDev
    { l with dev := { l.dev with v := fun k => if k = 11 then true else l.dev.v k } }
  else if l.curstep ∈ knownSteps then
    { l with dev := {
        pump := e.pump, ret := e.ret, v := e.valves
        ns := if l.curstep = 109 then true
          else if l.curstep = 106 ∨ l.curstep = 108 ∨ l.curstep = 111 then false else l.dev.ns
        nk := if l.curstep = 119 then true
          else if l.curstep = 116 ∨ l.curstep = 118 ∨ l.curstep = 121 then false else l.dev.nk } }
  else l

/-- `_LoadProgram` (cip_tech_def.cpp lines 3148-3228): the next part of the program and its first step. -/
def Line.load (l : Line) (o : Opt) : Line :=
  let prg := nextPrg l.curprg l.prog
  { l with curprg := prg, curstep := startStep prg l.prog o }

/-- `_GoToStep` (cip_tech_def.cpp lines 2041-2241) together with the assignment of its result to the current step. -/
def Line.goTo (l : Line) (param : Int) (o : Opt) : Line :=
  match within l.curstep param l.prog o with
  | some s => { l with curstep := s }
  | none => l.load o

/-- `EvalBlock` (cip_tech_def.cpp lines 1490-1522); its result is `blocked`. -/
def Line.block (l : Line) : Line :=
  let l := if l.ncmd = cmdLock then { l with blocked := true, ncmd := 0 } else l
  let l := if l.ncmd = cmdUnlock then
      { l with blocked := false, state := if 0 < l.curstep then -1 else 0, ncmd := 0 } else l
  if l.blocked then
    let l := if 0 < l.state then l.stop else l
    ({ l with ncmd := 0, state := lockedState } : Line).stopDev
  else l

/-- `EvalCipInError` (cip_tech_def.cpp lines 2938-2981). -/
def Line.inError (l : Line) (e : Env) : Line :=
  if e.feedback = true ∧ (l.state = -20 ∨ l.state = -19) then ({ l with state := 1 } : Line).initStep e else l

/-! ## The station -/

/-- The devices of the station: the serial numbers of the valves `LINE<l>V<n>` and of the devices with number `n` (0 when
there is none); self-cleaning is enabled; the station washes cars. -/
structure Cfg where
  own : Nat → Nat → Nat
  num : Nat → Nat
  scEnabled : Bool
  car : Bool

/-- The device that the recipes of line `l` mean by the number `n` (mcaRec.cpp lines 417-436). -/
def Cfg.find (c : Cfg) (l n : Nat) : Option Nat :=
  if 0 < c.own l n then some (c.own l n) else if 0 < c.num n then some (c.num n) else none

/-- The lines, the outputs of the devices of recipes (by serial number) and `scline`.  Line `i` has the number
`i + 1`. -/
structure Sys (n : Nat) where
  line : Fin n → Line
  outs : Nat → Bool
  scline : Nat

variable {n : Nat}

def Sys.put (s : Sys n) (i : Fin n) (l : Line) : Sys n := { s with line := Function.update s.line i l }

/-- The conversion of a value of a recipe to the number of a device (mcaRec.cpp line 417): undefined for values that
`unsigned long` cannot hold. -/
def devNo (q : Rat) : Option Nat := if -1 < q ∧ q < 2 ^ 64 then some (q.floor.toNat % 2 ^ 32) else none

/-- The values `RV_FIRSTVALVEON` to `RV_LASTVALVEON` and `RV_FIRSTVALVEOFF` to `RV_LASTVALVEOFF` of a recipe. -/
def onIdx : List Nat := List.range' 105 10
def offIdx : List Nat := List.range' 115 5

/-- The devices line `l` means by the numbers `ns`. -/
def Cfg.targets (c : Cfg) (l : Nat) (ns : List Nat) : List Nat := (ns.filter (0 < ·)).filterMap (c.find l)

def setAll (ds : List Nat) (b : Bool) (outs : Nat → Bool) : Nat → Bool := fun d => if d ∈ ds then b else outs d

/-- `OnRecipeDevices` (mcaRec.cpp lines 407-471). -/
def Cfg.onRecipe (c : Cfg) (l : Nat) (r : Option Nat) (val : Nat → Nat → Rat) (outs : Nat → Bool) :
    Option (Nat → Bool) :=
  match r with
  | none => some outs
  | some r =>
    (onIdx.mapM fun k => devNo (val r k)).bind fun on =>
    (offIdx.mapM fun k => devNo (val r k)).map fun off =>
      setAll (c.targets l off) false (setAll (c.targets l on) true outs)

/-- `OffRecipeDevices` (mcaRec.cpp lines 473-517). -/
def Cfg.offRecipe (c : Cfg) (l : Nat) (r : Option Nat) (val : Nat → Nat → Rat) (outs : Nat → Bool) :
    Option (Nat → Bool) :=
  match r with
  | none => some outs
  | some r => (onIdx.mapM fun k => devNo (val r k)).map fun on => setAll (c.targets l on) false outs

/-- `closeLineValves` (cip_tech_def.cpp lines 1386-1399). -/
def Cfg.closeLine (c : Cfg) (l : Nat) (outs : Nat → Bool) : Nat → Bool :=
  setAll (((List.range' 1001 99).map (c.own l)).filter (0 < ·)) false outs

/-- The comparison of the recipe `a` of the line with the recipe `b` of another one (cip_tech_def.cpp lines 1429-1468). -/
def clash (a b : Nat → Rat) : Bool :=
  (onIdx.any fun i => a i != 0 && (onIdx ++ offIdx).any fun k => a i == b k && decide (a i < 1000)) ||
    offIdx.any fun i => a i != 0 && onIdx.any fun k => a i == b k && decide (a i < 1000)

/-- `getValvesConflict` (cip_tech_def.cpp lines 1426-1470).  `none`: no recipe is loaded and values before the first
recipe are read. -/
def Sys.valvesConflict (s : Sys n) (i : Fin n) : Option Bool :=
  match (s.line i).recipe with
  | none => none
  | some r => some ((List.finRange n).any fun j =>
      j != i && (s.line j).state != 0 &&
        match (s.line j).recipe with
        | none => false
        | some r' => clash ((s.line i).val r) ((s.line j).val r'))

/-- The end of a wash: `_ResetLinesDevicesBeforeReset` and `ResetWP` (cip_tech_def.cpp lines 2983-3250) after `Stop` in
step 555 (lines 2918-2922). -/
def Cfg.finish (c : Cfg) (s : Sys n) (i : Fin n) : Option (Sys n) :=
  let l := (s.line i).stop
  (if l.conflict then some s.outs else (c.offRecipe (i + 1) l.recipe l.val s.outs).map (c.closeLine (i + 1))).map fun outs =>
    { s.put i { l with curstep := 0, curprg := -1, conflict := false, recipe := none, prog := 0 } with
      outs := outs
      scline := if c.scEnabled ∧ s.scline = i + 1 then 0 else s.scline }

/-- `EvalCipInProgress` with `_DoStep` (cip_tech_def.cpp lines 2601-2936). -/
def Cfg.progress (c : Cfg) (s : Sys n) (i : Fin n) (e : Env) : Option (Sys n) :=
  let l := s.line i
  if l.curstep = 555 then
    if e.endNow then c.finish s i else some s
  else
    let l := { l with dev := { l.dev with pump := e.pump, ret := e.ret, v := e.valves } }
    match if l.curstep ∈ knownSteps then e.out else .fail .unknownStep with
    | .go => some (s.put i (if e.isLine = true ∧ l.curstep ≠ 0 then l.setRet true e.dry else l))
    | .done p =>
      let l' := l.goTo p e.opt
      some (s.put i (if l'.curstep ≠ l.curstep then l'.initStep e else l'))
    | .fail x => some (s.put i { ({ l with state := x.code } : Line).stop with state := x.code })

/-- The start of a wash in `EvalCommands` (cip_tech_def.cpp lines 1854-1952).  The recipes of media and car numbers are
left out. -/
def Cfg.start (c : Cfg) (s : Sys n) (i : Fin n) (e : Env) : Option (Sys n) :=
  let l := s.line i
  if c.scEnabled ∧ 0 < s.scline ∧ s.scline ≠ i + 1 then some s
  else if c.scEnabled ∧ s.scline = 0 ∧ l.prog = 2048 ∧ ∃ j, j ≠ i ∧ (s.line j).state ≠ 0 then some s
  else
    let s := if c.scEnabled ∧ l.prog = 2048 then { s with scline := i + 1 } else s
    if c.car ∧ e.switches = false ∧ l.prog ≠ 256 ∧ l.prog ≠ 512 ∧ l.prog ≠ 2048 then some s
    else
      (s.valvesConflict i).bind fun x =>
        if x then some (s.put i { l with state := errConflict, conflict := true })
        else
          let l := { l with conflict := false }
          if e.objErr then some (s.put i { l with state := errWrongOs })
          else if e.acidDue ∧ l.prog.testBit 4 = false ∧ l.prog.testBit 5 = true then
            some (s.put i { l with state := errAcid })
          else
            (c.onRecipe (i + 1) l.recipe l.val (c.closeLine (i + 1) s.outs)).map fun outs =>
              let l := { l with state := 1 }
              let l := if c.car then l.load e.opt else l
              { s.put i (l.initStep e) with outs := outs }

/-- The part of `MCMD_EVALUATE` for a line that was stopped (cip_tech_def.cpp lines 1819-1853), without the Lua function
`cip_On_Resume`. -/
def Line.resume (l : Line) (e : Env) : Line :=
  if l.state < 0 ∧ l.conflict = false then
    if e.objErr then { l with state := errWrongOs }
    else if l.state ≠ errAcid then ({ l with state := 1 } : Line).initStep e else l
  else l

/-- `EvalCommands` (cip_tech_def.cpp lines 1773-2039).  The other commands do not change what is modelled. -/
def Cfg.commands (c : Cfg) (s : Sys n) (i : Fin n) (e : Env) : Option (Sys n) :=
  let l := s.line i
  if l.ncmd = cmdNext then
    some (if l.state ≠ 0 ∧ l.curstep ≠ 555 then s.put i (({ l.goTo 0 e.opt with state := 1 } : Line).initStep e) else s)
  else if l.ncmd = cmdPause then
    some (if 0 < l.state ∧ l.curstep ≠ 555 then s.put i { l.stop with state := -1 } else s)
  else if l.ncmd = cmdReset then
    some (s.put i (if l.state ≠ 0 then
        { ({ l.stop with curstep := 555 } : Line).initStep e with state := 1 }
      else { l with recipe := none, prog := 0 }))
  else if l.ncmd = cmdEvaluate then
    let s := s.put i (l.resume e)
    let l := s.line i
    if l.state = 0 ∧ (l.recipe ≠ none ∨ 256 ≤ l.prog) ∧ 0 < l.prog then c.start s i e else some s
  else if l.ncmd = cmdRetOn then
    some (if l.state ≠ 0 then s.put i { ({ l with over := false } : Line).setRet true e.dry with over := true } else s)
  else if l.ncmd = cmdRetOff then
    some (if l.state ≠ 0 then s.put i { ({ l with over := false } : Line).setRet false e.dry with over := true } else s)
  else some s

/-- `evaluate` (cip_tech_def.cpp lines 701-776); the choice of recipes and programs is an event of its own. -/
def Cfg.evaluate (c : Cfg) (s : Sys n) (i : Fin n) (e : Env) : Option (Sys n) :=
  let l := (s.line i).block
  let s := s.put i l
  if l.blocked then some s
  else if l.ncmd ≠ 0 then (c.commands s i e).map fun s => s.put i { s.line i with ncmd := 0 }
  else if 0 < l.state then c.progress s i e
  else if l.state < 0 then some (s.put i (l.inError e))
  else some s

/-- Number of recipes of a line (`recipePerLine`). -/
def recipes : Nat := 25

/-- What happens to the station: a command for line `i` (`set_cmd` "CMD", cip_tech_def.cpp lines 562-566), a cycle of it,
the choice of a recipe (`EvalRecipes`, lines 1696-1712; reads outside the recipes when the number is too big), the
choice of a program (lines 1714-1718; also `set_cmd` "RT_PAR_F"), a new value in a recipe (`setValue`, `setRecipeValue`). -/
inductive Ev (n : Nat) where
  | cmd (i : Fin n) (c : Nat)
  | cycle (i : Fin n) (e : Env)
  | select (i : Fin n) (r : Nat)
  | program (i : Fin n) (p : Nat)
  | edit (i : Fin n) (r k : Nat) (v : Rat)

def Cfg.step (c : Cfg) (s : Sys n) : Ev n → Option (Sys n)
  | .cmd i x => some (s.put i { s.line i with ncmd := x })
  | .cycle i e => c.evaluate s i e
  | .select i r =>
    if (s.line i).blocked then some s
    else if r < recipes then some (s.put i { s.line i with recipe := some r }) else none
  | .program i p => some (s.put i { s.line i with prog := p })
  | .edit i r k v => some (s.put i { s.line i with
      val := fun r' k' => if r' = r ∧ k' = k then v else (s.line i).val r' k' })

def Cfg.run (c : Cfg) (s : Sys n) : List (Ev n) → Option (Sys n)
  | [] => some s
  | e :: es => (c.step s e).bind (c.run · es)

/-- The station after its start (cip_tech_def.cpp lines 63-300): all lines are idle; the recipes were loaded. -/
def initial (vals : Fin n → Nat → Nat → Rat) (outs : Nat → Bool) : Sys n :=
  { line := fun i => { val := vals i }, outs := outs, scline := 0 }

end Ptusa.Cip
