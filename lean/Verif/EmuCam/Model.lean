import Mathlib.Data.Rat.Defs

/-!
# Cameras without input/output modules

Model of the branches with `is_emulator` of `camera`, `camera_DI2` and `camera_DI3` (PAC/common/device/device.cpp 159-311, device.h
1389-1465).  With modules see `Camera`, for the text of the device `SaveDev`.  Simplification: the values of the commands are integers
within the range of `int`.
-/
namespace Ptusa.EmuCam

/-- The classes: `camera`, `camera_DI2`, `camera_DI3`. -/
inductive Kind where
  | one | di2 | di3
  deriving DecidableEq

/-- `state` of `device`, `result`, `result_2`, `is_cam_ready`, the manual mode. -/
structure Cam where
  state : Int := 0
  result : Int := 0
  result2 : Int := 0
  ready : Bool := false
  manual : Bool := false

/-- After the constructors: device.cpp 159-165, 243-247, 276-279; the default of `is_ready` in device.h 1393. -/
def Cam.new : Kind → Cam
  | .one => { ready := true }
  | _ => {}

/-- `direct_on`, `direct_off`, `direct_set_state`: device.cpp 167-189, base.cpp 211-225. -/
def directSet (n : Int) (c : Cam) : Cam := { c with state := n }

/-- `set_cmd`, "RESULT": device.cpp 208-213; the index is not looked at. -/
def setResult (_idx : Nat) (n : Int) (c : Cam) : Cam := { c with result := n }

/-- `set_cmd`, "READY": device.cpp 214-217. -/
def setReady (n : Int) (c : Cam) : Cam := { c with ready := decide (n > 0) }

/-- `evaluate_io`: device.cpp 249-251, 281-284 (nothing without modules). -/
def evaluate (c : Cam) : Cam := c

/-- `get_result`: device.cpp 191-199, 291-303. -/
def getResult (k : Kind) (n : Int) (c : Cam) : Int :=
  match k with
  | .di3 => if n = 1 then c.result else if n = 2 then c.result2 else 0
  | _ => c.result

/-- What happens: commands of the program (`on`, `off`, `set`), of the operator, the results and the readiness that are simulated, the
manual mode, a cycle. -/
inductive Ev where
  | on | off
  | set (n : Int)
  | operSet (n : Int)
  | result (idx : Nat) (n : Int)
  | ready (n : Int)
  | manual (m : Bool)
  | cycle

/-- One event. -/
def step (c : Cam) : Ev → Cam
  | .on => if c.manual then c else directSet 1 c
  | .off => if c.manual then c else directSet 0 c
  | .set n => if c.manual then c else directSet n c
  | .operSet n => directSet n c
  | .result idx n => setResult idx n c
  | .ready n => setReady n c
  | .manual m => { c with manual := m }
  | .cycle => evaluate c

/-- Events in turn, from the start. -/
def run (k : Kind) (h : List Ev) : Cam := h.foldl step (Cam.new k)

end Ptusa.EmuCam
