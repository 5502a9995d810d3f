import Verif.Base.Fl
import Verif.Timer.Model
import Mathlib.Data.Rat.Floor

/-!
# Watching a wash for faults

Model of `cipline_tech_object::_CheckErr` (PAC/common/cip_tech_def.cpp lines 3300-3429), which `_DoStep` calls in every
cycle of a running wash (lines 2744-2749), and of `ResetErr` (lines 3295-3298), which `_InitStep` calls (line 2273).  A Lua
function `cip_CheckErr` that replaces the check is not modelled.  Numbers are exact (see `Verif.Base.Fl`).
-/
namespace Ptusa.CipErr

open Timer (Tm Tmr)

/-- The errors of the check (cip_tech_def.h lines 214-237). -/
inductive Err where
  | pump | ret | os | object | levelBachok | levelTankS | levelTankK | levelTankW | supplyTemp | returnTemp | conc | noFlow
  deriving DecidableEq, Repr

/-- The numbers of the errors (cip_tech_def.h lines 222-237). -/
def Err.code : Err → Int
  | pump => -16 | noFlow => -17 | os => -19 | object => -20 | levelBachok => -35 | levelTankS => -36 | levelTankK => -37
  | levelTankW => -38 | supplyTemp => -39 | returnTemp => -40 | conc => -41 | ret => -100

/-- What the check reads: the step; the states of the pump `NP`, of the return pump and of the signals of the washed
object (`none` when there is no such device; `true` when the signal is on); the level sensors of the small tank and of the
tanks of caustic, acid and water; the temperature sensors of supply and return; the concentration sensor; the flow, the
parameters `P_R_NO_FLOW` and `P_TM_R_NO_FLOW` and the blocked errors `P_BLOCK_ERRORS`. -/
structure Inp where
  step : Int
  np : Int
  ret : Option Int := none
  os : Option Bool := none
  objReady : Option Bool := none
  cipReady : Option Bool := none
  ll : Bool
  lm : Bool
  lh : Bool
  lsl : Bool
  lsh : Bool
  lkl : Bool
  lkh : Bool
  lwl : Bool
  lwh : Bool
  tpState : Int
  tp : Fl
  trState : Int
  tr : Fl
  qState : Int
  flow : Fl
  flowMin : Fl
  flowTime : Fl
  block : Fl

/-- What the check remembers: `pumpflag`, `pumptimer`, `bachok_lvl_err_delay` and the timer `TMR_NO_FLOW`. -/
structure St where
  pumpFlag : Bool
  pumpT : Tm
  levelT : Tm
  flow : Tmr
  deriving DecidableEq

/-- The state after the start of the program (cip_tech_def.cpp lines 142, 211-212). -/
def initial (now : Tm) : St := ⟨false, now, now, {}⟩

/-- A conversion from `float` to `unsigned long`: undefined when the value does not fit. -/
def toUlong : Fl → Option Tm
  | .nan => none
  | .num q => if -1 < q ∧ q < 2 ^ 64 then some (BitVec.ofNat 64 q.floor.toNat) else none

/-- `steps_caustic`, `steps_acid` (cip_tech_def.cpp lines 30-32). -/
def stepsCaustic : List Int := [22, 23, 24, 26, 28, 29, 31, 33, 34, 35]
def stepsAcid : List Int := [42, 43, 44, 46, 48, 49, 53, 54, 55]

/-- The pump is checked (cip_tech_def.cpp lines 3310-3325): the new state and whether the error is returned. -/
def pumpCheck (s : St) (now : Tm) (i : Inp) : St × Bool :=
  if i.np ≤ -1 then
    let s := if s.pumpFlag then s else { s with pumpFlag := true, pumpT := now }
    (s, decide (1500#64 < Time.deltaMs now s.pumpT))
  else ({ s with pumpFlag := false }, false)

/-- The return pump and the signals of the object (cip_tech_def.cpp lines 3327-3352). -/
def objectCheck (i : Inp) : Option Err :=
  if i.ret = some (-1) then some .ret
  else if i.os = some false then some .os
  else if i.objReady = some false then some .object
  else if i.cipReady = some false then some .object
  else none

/-- The levels of the small tank (cip_tech_def.cpp lines 3354-3366). -/
def levelCheck (s : St) (now : Tm) (i : Inp) (flags : Tm) : St × Bool :=
  if (!i.ll && (i.lm || i.lh)) || (!i.lm && i.lh) then
    (s, decide (5000#64 < Time.deltaMs now s.levelT) && !flags.getLsbD 0)
  else ({ s with levelT := now }, false)

/-- The other sensors (cip_tech_def.cpp lines 3368-3405). -/
def sensorCheck (i : Inp) (flags : Tm) : Option Err :=
  if ((22 ≤ i.step ∧ i.step ≤ 40) ∨ (105 ≤ i.step ∧ i.step ≤ 111)) ∧ i.lsl = false ∧ i.lsh = true ∧
      flags.getLsbD 1 = false then some .levelTankS
  else if ((42 ≤ i.step ∧ i.step ≤ 60) ∨ (115 ≤ i.step ∧ i.step ≤ 121)) ∧ i.lkl = false ∧ i.lkh = true ∧
      flags.getLsbD 2 = false then some .levelTankK
  else if i.lwl = false ∧ i.lwh = true ∧ flags.getLsbD 3 = false then some .levelTankW
  else if (i.tpState ≤ -1 ∨ i.tp.le (.num (-1)) = true) ∧ flags.getLsbD 4 = false then some .supplyTemp
  else if (i.trState ≤ -1 ∨ i.tr.le (.num (-1)) = true) ∧ flags.getLsbD 5 = false then some .returnTemp
  else if (i.step ∈ stepsCaustic ∨ i.step ∈ stepsAcid) ∧ i.qState ≤ -1 ∧ flags.getLsbD 6 = false then some .conc
  else none

/-- The countdown of the timer `TMR_NO_FLOW` is brought up to date (cip_tech_def.cpp lines 3408-3411). -/
def setTime (t : Tmr) (x : Fl) : Option Tmr :=
  if Fl.eq (.num t.countdown.toNat) (x * .num 1000) then some t
  else (toUlong x).map fun k => t.setCountdown (k * 1000)

/-- The flow (cip_tech_def.cpp lines 3412-3427); `ON` is 1. -/
def flowCheck (t : Tmr) (now : Tm) (i : Inp) : Tmr × Bool :=
  if i.np = 1 then
    if i.flow.le i.flowMin then (t.start now, (t.start now).isTimeUp now) else (t.reset, false)
  else (t, false)

/-- `_CheckErr` (cip_tech_def.cpp lines 3300-3429): the new state and the error; `none` when a conversion is undefined. -/
def check (s : St) (now : Tm) (i : Inp) : Option (St × Option Err) :=
  (toUlong i.block).bind fun flags =>
  if i.step = 555 then some (s, none)
  else
    let (s, p) := pumpCheck s now i
    if p then some (s, some .pump)
    else match objectCheck i with
    | some e => some (s, some e)
    | none =>
      let (s, l) := levelCheck s now i flags
      if l then some (s, some .levelBachok)
      else match sensorCheck i flags with
      | some e => some (s, some e)
      | none =>
        (setTime s.flow i.flowTime).map fun t =>
          let (t, f) := flowCheck t now i
          ({ s with flow := t }, if f then some .noFlow else none)

/-- What happens to the line: the check of a cycle of a running wash with what it returned, or a step that is started or
resumed (`_InitStep`). -/
inductive Ev where
  | check (i : Inp) (r : Option Err)
  | init

/-- The states the line can reach after the start of the program at `t0`, with the history of what happened, the oldest
first.  The clock does not go back. -/
inductive Reach (t0 : Tm) : List (Tm × Ev) → St → Prop where
  | start : Reach t0 [] (initial t0)
  | check {h s s' i r} (now : Tm) : Reach t0 h s → t0.toNat ≤ now.toNat → (∀ x ∈ h, x.1.toNat ≤ now.toNat) →
      check s now i = some (s', r) → Reach t0 (h ++ [(now, .check i r)]) s'
  | init {h s} (now : Tm) : Reach t0 h s → t0.toNat ≤ now.toNat → (∀ x ∈ h, x.1.toNat ≤ now.toNat) →
      Reach t0 (h ++ [(now, .init)]) { s with flow := s.flow.reset }

end Ptusa.CipErr
