import Verif.CipSet.Model
import Verif.CipFlow.Model

/-!
# What the recipe demands of the steps
-/
namespace Ptusa.CipSet

/-- The temperature of the last rinse: a program which only rinses with clean water has its own, and so has one with a
disinfectant. -/
def Ctx.lastRinse (c : Ctx) : Par :=
  if c.prog = 1 then .T_CLEAN_RINSING else if c.cold then .T_SANITIZER_RINSING else .T_WOP

/-- The temperature of the part of the wash to which a step belongs: first rinse, caustic, rinse after caustic, acid, rinse after
acid, hot water, disinfectant, last rinse. `none`: the small tank or the object is emptied between the parts. -/
def Ctx.demanded (c : Ctx) (step : Int) : Option Par :=
  if 5 ≤ step ∧ step ≤ 8 then some .T_WP
  else if 22 ≤ step ∧ step ≤ 28 then some .T_S
  else if 33 ≤ step ∧ step ≤ 37 then some .T_WSP
  else if 42 ≤ step ∧ step ≤ 48 then some .T_K
  else if 53 ≤ step ∧ step ≤ 57 then some .T_WKP
  else if 62 ≤ step ∧ step ≤ 66 then some .T_D
  else if 72 ≤ step ∧ step ≤ 77 then some .T_SANITIZER
  else if 83 ≤ step ∧ step ≤ 86 then some c.lastRinse
  else none

/-- Steps in which nothing is pumped and nothing is heated: filling the small tank with water. -/
def fills : List Int := [31, 61, 65, 71, 75, 81]

/-- Steps in which the object is emptied. -/
def empties : List Int := [6, 9, 23, 34, 40, 43, 54, 60, 63, 73, 79, 84, 91]

/-- Steps which circulate caustic, acid, hot water, disinfectant. -/
def circulates : List Int := [28, 48, 66, 77]

/-- Caustic, acid and hot water are not heated on their way to a tank, and while the small tank is filled with them; on their way
back only if the heating of tanks is not switched off. -/
def Ctx.unheated (c : Ctx) (step : Int) : Bool :=
  c.tank && ([22, 26, 42, 46, 62].contains step || c.noTankHeat && [24, 44, 64].contains step)

/-- Emptying the small tank, and the first rinse behind it. -/
def before : List (Int × Int) := [(29, 33), (49, 53)]

/-- Steps and the volumes they pump: to the object, from the object, the additional ones. -/
def volumes : List (Int × Par) :=
  [(5, .V1), (22, .V1), (33, .V1), (42, .V1), (53, .V1), (62, .V1), (72, .V1), (83, .V1),
   (7, .V2), (24, .V2), (35, .V2), (44, .V2), (55, .V2), (64, .V2), (74, .V2), (85, .V2),
   (8, .DOP_V_PR_OP), (37, .DOP_V_AFTER_S), (57, .DOP_V_AFTER_K)]

/-- The additional volume of the last rinse. -/
def Ctx.lastVolume (c : Ctx) : Par :=
  if c.prog = 1 then .V_CLEAN_RINSING else if c.cold then .V_SANITIZER_RINSING else .DOP_V_OK_OP

/-- The time of a circulation; a program with caustic and acid has its own times. -/
def Ctx.duration (c : Ctx) (step : Int) : Option Par :=
  let both := c.prog.testBit 4 && c.prog.testBit 5
  if step = 28 then some (if both then .TM_S_SK else .TM_S)
  else if step = 48 then some (if both then .TM_K_SK else .TM_K)
  else if step = 66 then some .TM_D
  else if step = 77 then some .TM_SANITIZER
  else none

/-- The return is warm enough and there is flow. -/
def warm (tr z delta flow noFlow : Rat) : Bool := decide (z - delta ≤ tr ∧ noFlow < flow)

/-- When something was looked at, and whether it was good. A stop is not. -/
def CEv.sample : CEv → Option (Nat × Bool)
  | .cycle now tr z delta flow noFlow _ => some (now, warm tr z delta flow noFlow)
  | .stop now => some (now, false)
  | .resume _ => none

/-- The time during which it was good: from each good sample to the next one. -/
def good : List (Nat × Bool) → Nat
  | a :: b :: l => (if a.2 then b.1 - a.1 else 0) + good (b :: l)
  | _ => 0

/-- The signal to go on was seen. -/
def CEv.signal : CEv → Bool
  | .cycle _ _ _ _ _ _ cont => cont == some true
  | _ => false

/-- The tank from which the pump takes the rest below the lower level, and the litres for it. -/
def rest : CipFlow.Src → Option Sc
  | .tankS => some .LL_TS
  | .tankK => some .LL_TK
  | .tankW => some .LL_TW
  | .water => none

/-- The steps which pump out the rest of a tank. -/
def restSteps : List Int := [152, 157, 164, 170, 176, 182, 184]

/-- The steps which pump a tank down to its lower level. -/
def levelSteps : List Int := [151, 156, 163, 169, 175, 181, 183]

/-- Whether the lower level of a tank is covered. -/
def covered (e : ScEnv) : CipFlow.Src → Bool
  | .tankW => e.lwl
  | .tankS => e.lsl
  | .tankK => e.lkl
  | .water => true

/-- The steps with a volume of their own. -/
def rinseSteps : List (Int × Sc) :=
  [(153, .V_TW_PREDV), (160, .V_PROM_TS), (167, .V_PROM_TK), (173, .V_PROM_TW), (179, .V_PROM_TS), (185, .V_CLEAN_TS),
   (186, .V_CLEAN_TK), (187, .V_CLEAN_TW)]

/-- The steps with a time of their own. -/
def timeSteps : List (Int × Sc) :=
  [(154, .T_TW_DRAIN), (155, .T_SCH_CIRC_PREDV), (161, .T_TW_CIRC), (162, .T_K_CIRC_PREDV), (168, .T_TS_CIRC), (174, .T_TK_CIRC),
   (180, .T_TW_CIRC)]

end Ptusa.CipSet
