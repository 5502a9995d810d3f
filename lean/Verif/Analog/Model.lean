import Mathlib.Data.Rat.Floor
import Mathlib.Tactic.Linarith

/-!
# Analog channels: `PAC/common/bus_coupler_io.cpp`

Values are rationals (no rounding of `float`).  A NaN in a computation is `none`.
-/
namespace Ptusa.Analog

/-- Modules with current outputs of 4 – 20 mA, bus_coupler_io.cpp 311-312, 322-323, 333. -/
inductive OutModule
  | wago554
  | axlAO4
  | axlSE
  deriving DecidableEq, Repr

/-- Raw units per mA, bus_coupler_io.cpp 319, 330, 340. -/
def OutModule.factor : OutModule → Rat
  | .wago554 => 4095 / 2
  | .axlAO4 => 1875
  | .axlSE => 1000

/-- The scaling of a request to mA, bus_coupler_io.cpp 313-316, 324-327, 334-337. Division by a zero range gives an
infinity of the sign of the dividend, for which the limit it is cut to by `limitMa` stands; 0/0 is NaN (`none`). -/
def toMa (v min max : Rat) : Option Rat :=
  if min ≠ 0 ∨ max ≠ 0 then
    if max - min = 0 then
      if v - min = 0 then none else some (if v - min > 0 then 20 else 4)
    else some (4 + 16 * (v - min) / (max - min))
  else some v

/-- The limits, bus_coupler_io.cpp 317-318, 328-329, 338-339. -/
def limitMa (v : Rat) : Rat :=
  let a := if v < 4 then 4 else v
  if a > 20 then 20 else a

/-- `set_AO` for the supported modules and a valid channel index, bus_coupler_io.cpp 298-347: the raw value written;
`v = none` is a request NaN; result `none`: the conversion of NaN to an integer is undefined. Requests of ±∞ are not
modelled. Any other module takes the request unscaled. -/
def setAO (m : OutModule) (v : Option Rat) (min max : Rat) : Option Int :=
  v.bind fun v => (toMa v min max).map fun ma => ⌊m.factor * (limitMa ma - 4)⌋

/-- `get_AO`, bus_coupler_io.cpp 123-277, of the raw value. -/
def getAO (m : OutModule) (raw : Int) (min max : Rat) : Rat :=
  match m with
  | .wago554 =>
    if min = 0 ∧ max = 0 then
      if raw < 7 then 0 else 4 + raw / (4095 / 2 : Rat)
    else
      let val : Rat := if raw < 7 then 4 else 4 + raw / (4095 / 2 : Rat)
      min + (val - 4) * (max - min) / 16
  | m =>
    let val : Rat := if raw < 0 then 4 else 4 + raw / m.factor
    if min = 0 ∧ max = 0 then val else min + (val - 4) * (max - min) / 16

/-- Input modules, bus_coupler_io.cpp 393-394, 432-433, 474, 484, 493-494, 512. -/
inductive InModule
  | pt450
  | cur466
  | strain491
  | rtd4
  | axlAI4
  | axlSE
  deriving DecidableEq, Repr

/-- `ERRORS`, bus_coupler_io.h. -/
inductive AiErr
  | noErr
  | under
  | over
  | out
  deriving DecidableEq, Repr

/-- Scaling of a current input, bus_coupler_io.cpp 445-454, 501-509, 519-527. -/
def scaleIn (raw : Int) (factor min max : Rat) : Rat :=
  let val : Rat := 4 + raw / factor
  if min = 0 ∧ max = 0 then val else min + (val - 4) * (max - min) / 16

/-- `get_AI`, bus_coupler_io.cpp 361-531, of the raw value (16 bit) of a valid channel index. -/
def getAI (m : InModule) (raw : Int) (min max : Rat) : Rat × AiErr :=
  match m with
  | .pt450 => if raw < -2000 then (-1000, .under) else if raw > 8500 then (-1000, .over)
      else (raw / 10, .noErr)
  | .cur466 => if raw = 3 then (-1, .under) else if raw ≥ 32761 then (-1, .over)
      else (scaleIn raw (4095 / 2) min max, .noErr)
  | .strain491 => if raw ≥ -30000 ∧ raw ≤ 30000 then (raw / 2000, .noErr) else (-1000, .out)
  | .rtd4 => if raw < -32000 then (-1000, .under) else (raw / 10, .noErr)
  | .axlAI4 => if raw < -32000 then (-1, .under) else (scaleIn raw 1875 min max, .noErr)
  | .axlSE => if raw < -32000 then (-1, .under) else (scaleIn raw 1000 min max, .noErr)

end Ptusa.Analog
