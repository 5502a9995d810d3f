import Verif.ParDev.Model

/-!
# Specification for the parameters of devices

Written from the documentation of the devices: which parameters a device of a class has, and what stands in a parameter
after a number of commands of the server (which are saved) and assignments of the program (which are not).
-/
namespace Ptusa.ParDev.Spec

open Ptusa.Registry (Cls)

/-- The names of the parameters of a class, in the order of their numbers 1, 2, …  -/
def paramNames : Cls → List String
  | .valveDO1DI1off | .valveDO1DI1on | .valveDO1DI2 | .valveDO2DI2 | .valveMixProof | .valveASmixProof | .valveBottom
  | .valveASDO1DI2 | .valveBistable | .termDI1off | .termDI1on | .iolMixProof | .geaDs | .sorio | .geaSs | .thinktop
  | .termDO1DI2 | .miniFlushing | .termDO3DI2 => ["P_ON_TIME", "P_FB"]
  | .motor | .altivar => ["P_ON_TIME"]
  | .altivarLinear => ["P_ON_TIME", "P_SHAFT_DIAMETER", "P_TRANSFER_RATIO"]
  | .levelS | .flowS | .stateS | .stateSInverse | .diffPressure | .tempSignal | .diSignal | .button => ["P_DT"]
  | .levelSIol => ["P_DT", "P_ERR"]
  | .tempE | .tempEIol => ["P_CZ", "P_ERR_T"]
  | .tempEAnalog => ["P_CZ", "P_ERR_T", "P_MIN_V", "P_MAX_V"]
  | .counterF => ["P_MIN_FLOW", "P_MAX_FLOW", "P_CZ", "P_DT", "P_ERR_MIN_FLOW"]
  | .counterIol => ["P_CZ", "P_DT", "P_ERR_MIN_FLOW"]
  | .analogOutput => ["P_MIN_V", "P_MAX_V"]
  | .levelE => ["P_CZ", "P_ERR"]
  | .levelECyl => ["P_CZ", "P_ERR", "P_MAX_P", "P_R"]
  | .levelECone | .levelEIol => ["P_CZ", "P_ERR", "P_MAX_P", "P_R", "P_H_CONE"]
  | .pressureE | .concE | .concEOk | .analogInput => ["P_CZ", "P_MIN_V", "P_MAX_V"]
  | .pressureEIol | .concEIol => ["P_ERR"]
  | .wages => ["P_NOMINAL_W", "P_RKP", "P_CZ", "P_DT"]
  | .wagesRS232 | .wagesEth => ["P_CZ"]
  | .wagesPxc => ["P_DT", "P_CZ", "P_K"]
  | .cameraDI2 | .cameraDI3 => ["P_READY_TIME"]
  | .thld => ["P_is_reverse", "P_delta"]
  | .pid => ["P_k", "P_Ti", "P_Td", "P_dt", "P_max", "P_min", "P_acceleration_time", "P_is_manual_mode", "P_U_manual",
      "P_k2", "P_Ti2", "P_Td2", "P_out_max", "P_out_min", "P_is_reverse", "P_is_zero_start"]
  | _ => []

variable {α : Type}

/-- What the parameter number `k` (from 1), named `n`, holds after a history that found `v` in it. -/
def holds (k : Nat) (n : String) : List (Op α) → α → α
  | [], v => v
  | .cmd m w :: h, v => holds k n h (if m = n then w else v)
  | .set i o w :: h, v => holds k n h (if (i + o).toNat = k then w else v)

/-- What is saved of the parameter named `n` after a history, `v` having been saved before. -/
def saves (n : String) : List (Op α) → α → α
  | [], v => v
  | .cmd m w :: h, v => saves n h (if m = n then w else v)
  | .set _ _ _ :: h, v => saves n h v

end Ptusa.ParDev.Spec
