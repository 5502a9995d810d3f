import Verif.Analog.Model

/-!
# Specification of analog channels, from the tables of the modules' manuals quoted in the code
-/
namespace Ptusa.Analog

/-- The raw value for 20 mA. -/
def OutModule.full : OutModule → Int
  | .wago554 => 32760
  | .axlAO4 => 30000
  | .axlSE => 16000

/-- Raw values that stand for a measurement: tables at bus_coupler_io.cpp 376-391, 409-431, 457-473. The code has no
table for the AXL inputs: the limits of the table of the output modules of the same series (179-199, 231-247) are
taken for the current inputs, those of the other Pt modules for the RTD4. -/
def InModule.valid : InModule → Int → Prop
  | .pt450, r => -2000 ≤ r ∧ r ≤ 8500
  | .cur466, r => 0 ≤ r ∧ r ≤ 32760 ∧ r ≠ 3
  | .strain491, r => -30000 ≤ r ∧ r ≤ 30000
  | .rtd4, r => -2000 ≤ r ∧ r ≤ 8500
  | .axlAI4, r => 0 ≤ r ∧ r ≤ 32512
  | .axlSE, r => 0 ≤ r ∧ r ≤ 17339

/-- Full scale of the current inputs. -/
def InModule.full : InModule → Option Int
  | .cur466 => some 32760
  | .axlAI4 => some 30000
  | .axlSE => some 16000
  | _ => none

end Ptusa.Analog
