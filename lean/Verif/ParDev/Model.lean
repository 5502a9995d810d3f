import Verif.Registry.Model

/-!
# Parameters of devices

Model of `par_device` (PAC/common/device/base.cpp lines 44-183) and of the constructors of the devices that name their
parameters (PAC/common/device/device.cpp, valve.cpp, base.cpp, PAC/common/PID.cpp).  The values stand in a set of saved
parameters (`saved_params_float`, see C03 to C06); here they are the list of the values in memory and of those that were
saved.
-/
namespace Ptusa.ParDev

open Ptusa.Registry (Cls)

/-- `par_device` with values of the type `α` (base.h lines 110-115): the names (`nullptr` is `none`), the values in
memory and the saved ones.  Devices without parameters (`par == nullptr`) have empty lists. -/
structure Par (α : Type) where
  names : List (Option String)
  vals : List α
  saved : List α
  stub : α
  deriving DecidableEq, Repr

variable {α : Type}

/-- `par_device::par_device` (base.cpp lines 97-110): parameters without names; the values are those that were saved
before. -/
def new (stored : List α) (stub : α) : Par α :=
  { names := stored.map fun _ => none, vals := stored, saved := stored, stub := stub }

/-- `C_MAX_PAR_NAME_LENGTH` (base.h line 109). -/
def maxParName : Nat := 25

/-- `par_device::set_par_name` (base.cpp lines 140-183); the sum of index and offset is one of `u_int`. -/
def Par.setName (p : Par α) (idx offset : BitVec 32) (name : String) : Par α :=
  let k := (offset + idx).toNat
  if k ≤ p.names.length ∧ 0 < k then
    if maxParName < name.utf8ByteSize then p
    else match p.names[k - 1]? with
      | some none => { p with names := p.names.set (k - 1) (some name) }
      | _ => p
  else p

/-- The loop of `par_device::set_par_by_name` from parameter `i` on (base.cpp lines 71-79): the place of the name.  The
outer `none`: `strcmp` gets the null pointer of a parameter without a name. -/
def lookup (name : String) : List (Option String) → Nat → Option (Option Nat)
  | [], _ => some none
  | none :: _, _ => none
  | some n :: ns, i => if n = name then some (some i) else lookup name ns (i + 1)

/-- `par_device::set_par_by_name` (base.cpp lines 67-88): the new state and the result. -/
def Par.setByName (p : Par α) (name : String) (v : α) : Option (Par α × Nat) :=
  (lookup name p.names 0).map fun
    | some i => ({ p with vals := p.vals.set i v, saved := p.saved.set i v }, 0)
    | none => (p, 1)

/-- `par_device::set_par` (base.cpp lines 90-96): not saved; an index that does not exist changes the stub of the set
(param_ex.h lines 191-218). -/
def Par.setPar (p : Par α) (idx offset : BitVec 32) (v : α) : Par α :=
  let k := (offset + idx).toNat
  if p.names = [] then p
  else if k ≤ p.names.length ∧ 0 < k then { p with vals := p.vals.set (k - 1) v } else { p with stub := v }

/-- `par_device::get_par( idx, offset )` (base.cpp lines 130-138); `zero` is returned without parameters. -/
def Par.getPar (p : Par α) (zero : α) (idx offset : BitVec 32) : α :=
  let k := (offset + idx).toNat
  if p.names = [] then zero
  else if k ≤ p.names.length ∧ 0 < k then p.vals.getD (k - 1) zero else p.stub

/-- The number of parameters of a class and the calls of `set_par_name` in its constructors, in their order: index,
offset and name.  (base.cpp lines 687-695, 749-754; device.cpp lines 244-246, 496-503, 1380-1386, 1451-1459,
1587-1594, 1634-1638, 1671-1677, 1719-1723, 1789-1798, 1901-1904, 1967-1972, 2065-2071, 2140-2172, 2270-2277, 2577-2583,
2742-2748, 2857-2862, 2877-2879, 3296-3301, 3347-3350, 3430-3435, 3704-3715, 3731-3734, 3943-3948; valve.cpp lines
60-89; PID.cpp lines 10-52.) -/
def ctor : Cls → Nat × List (BitVec 32 × BitVec 32 × String)
  | .valveDO1DI1off | .valveDO1DI1on | .valveDO1DI2 | .valveDO2DI2 | .valveMixProof | .valveASmixProof | .valveBottom
  | .valveASDO1DI2 | .valveBistable | .termDI1off | .termDI1on | .iolMixProof | .geaDs | .sorio | .geaSs | .thinktop
  | .termDO1DI2 | .miniFlushing | .termDO3DI2 => (2, [(1, 0, "P_ON_TIME"), (2, 0, "P_FB")])
  | .motor | .altivar => (1, [(1, 0, "P_ON_TIME")])
  | .altivarLinear => (3, [(1, 0, "P_ON_TIME"), (1, 1, "P_SHAFT_DIAMETER"), (2, 1, "P_TRANSFER_RATIO")])
  | .levelS | .flowS | .stateS | .stateSInverse | .diffPressure | .tempSignal | .diSignal | .button =>
    (1, [(1, 0, "P_DT")])
  | .levelSIol => (2, [(1, 0, "P_DT"), (2, 0, "P_ERR")])
  | .tempE | .tempEIol => (2, [(1, 0, "P_CZ"), (1, 1, "P_ERR_T")])
  | .tempEAnalog => (4, [(1, 0, "P_CZ"), (1, 1, "P_ERR_T"), (2, 1, "P_MIN_V"), (3, 1, "P_MAX_V")])
  | .counterF => (5, [(1, 0, "P_MIN_FLOW"), (2, 0, "P_MAX_FLOW"), (3, 0, "P_CZ"), (4, 0, "P_DT"),
      (5, 0, "P_ERR_MIN_FLOW")])
  | .counterIol => (3, [(1, 0, "P_CZ"), (2, 0, "P_DT"), (3, 0, "P_ERR_MIN_FLOW")])
  | .analogOutput => (2, [(1, 0, "P_MIN_V"), (2, 0, "P_MAX_V")])
  | .levelE => (2, [(1, 0, "P_CZ"), (1, 1, "P_ERR")])
  | .levelECyl => (4, [(1, 0, "P_CZ"), (1, 1, "P_ERR"), (1, 2, "P_MAX_P"), (2, 2, "P_R")])
  | .levelECone | .levelEIol =>
    (5, [(1, 0, "P_CZ"), (1, 1, "P_ERR"), (1, 2, "P_MAX_P"), (2, 2, "P_R"), (3, 2, "P_H_CONE")])
  | .pressureE | .concE | .concEOk | .analogInput => (3, [(1, 0, "P_CZ"), (1, 1, "P_MIN_V"), (2, 1, "P_MAX_V")])
  | .pressureEIol | .concEIol => (1, [(1, 0, "P_ERR")])
  | .wages => (4, [(1, 0, "P_NOMINAL_W"), (2, 0, "P_RKP"), (3, 0, "P_CZ"), (4, 0, "P_DT")])
  | .wagesRS232 | .wagesEth => (1, [(1, 0, "P_CZ")])
  | .wagesPxc => (3, [(1, 0, "P_DT"), (2, 0, "P_CZ"), (3, 0, "P_K")])
  | .cameraDI2 | .cameraDI3 => (1, [(1, 0, "P_READY_TIME")])
  | .thld => (2, [(2, 0, "P_delta"), (1, 0, "P_is_reverse")])
  | .pid => (16, [(1, 0, "P_k"), (2, 0, "P_Ti"), (3, 0, "P_Td"), (4, 0, "P_dt"), (5, 0, "P_max"), (6, 0, "P_min"),
      (7, 0, "P_acceleration_time"), (8, 0, "P_is_manual_mode"), (9, 0, "P_U_manual"), (10, 0, "P_k2"),
      (11, 0, "P_Ti2"), (12, 0, "P_Td2"), (13, 0, "P_out_max"), (14, 0, "P_out_min"), (15, 0, "P_is_reverse"),
      (16, 0, "P_is_zero_start")])
  | .stub | .valveDO1 | .valveDO2 | .termDO1 | .termDO3 | .virtualValve | .analogValve | .analogValveIol | .virtualMotor
  | .counter | .virtualCounter | .doSignal | .siren | .lamp | .virtualWages | .breaker | .columnDiscrete | .columnIol
  | .camera | .powerUnit | .virtualDevice => (0, [])

/-- The calls of a constructor, one after another. -/
def Par.nameAll (p : Par α) : List (BitVec 32 × BitVec 32 × String) → Par α
  | [] => p
  | (i, o, n) :: cs => (p.setName i o n).nameAll cs

/-- The parameters of a new device of class `c`, of which the values `stored` were found in the memory. -/
def make (c : Cls) (stored : List α) (stub : α) : Par α := (new stored stub).nameAll (ctor c).2

/-- What the server and the program do with the parameters of a device. -/
inductive Op (α : Type) where
  | cmd (name : String) (v : α)
  | set (idx offset : BitVec 32) (v : α)
  deriving DecidableEq, Repr

def Par.step (p : Par α) : Op α → Option (Par α)
  | .cmd n v => (p.setByName n v).map (·.1)
  | .set i o v => some (p.setPar i o v)

def Par.run (p : Par α) : List (Op α) → Option (Par α)
  | [] => some p
  | o :: os => (p.step o).bind (·.run os)

end Ptusa.ParDev
