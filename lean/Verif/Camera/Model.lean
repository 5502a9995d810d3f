import Verif.Base.Fl
import Verif.Time.Model

/-!
# Cameras: `camera`, `camera_DI2`, `camera_DI3` (`PAC/common/device/device.cpp`), outside the emulator
-/
namespace Ptusa.Camera

/-- `out`: the output, `start`: `start_switch_time` (a `u_int`), `ready`: `is_cam_ready`, `state`: of the
class `device`, `res2`: `result_2`. -/
structure Cam where
  out : Bool
  start : BitVec 32
  ready : Bool
  state : Int
  res2 : Bool
  deriving DecidableEq, Repr

/-- Constructor of `camera_DI2` (device.cpp lines 249-253, device.h line 1440) at the time `t0`. -/
def Cam.init (t0 : BitVec 64) : Cam := ⟨false, t0.truncate 32, false, 0, false⟩

/-- `camera::direct_on` (device.cpp lines 184-189). -/
def Cam.on (c : Cam) : Cam := { c with out := true }

/-- `camera::direct_off` (device.cpp lines 177-182). -/
def Cam.off (c : Cam) : Cam := { c with out := false }

/-- `camera::direct_set_state` (device.cpp lines 167-175). -/
def Cam.set (c : Cam) (n : Int) : Cam := if n ≠ 0 then c.on else c.off

/-- `camera_DI2::evaluate_io` and `camera_DI3::evaluate_io` (device.cpp lines 255-280, 289-297) at the
time `now`; `rd`, `r2`: the inputs "ready" and "result 2", `par`: `P_READY_TIME`. -/
def Cam.eval (par : Fl) (c : Cam) (now : BitVec 64) (rd r2 : Bool) : Cam :=
  let o : Int := if c.out then 1 else 0
  let c :=
    if rd then ({ c with start := now.truncate 32 } : Cam).set o
    else if Fl.lt (.num (Time.deltaMs now (c.start.zeroExtend 64)).toNat) par then c.set o
    else c.set (-1)
  { c with ready := rd, res2 := r2 }

/-- `camera_DI3::get_result` (device.cpp lines 299-311, 191-199); `r1`: the input "result" now. -/
def Cam.result (c : Cam) (r1 : Bool) (n : Int) : Int :=
  if n = 1 then (if r1 then 1 else 0) else if n = 2 then (if c.res2 then 1 else 0) else 0

/-- A cycle, or a command. -/
inductive Ev where
  | eval (now : BitVec 64) (rd r2 : Bool)
  | cmd (n : Int)
  deriving DecidableEq, Repr

/-- One event; `on` is the command 1, `off` the command 0. -/
def Cam.step (par : Fl) (c : Cam) : Ev → Cam
  | .eval now rd r2 => c.eval par now rd r2
  | .cmd n => c.set n

/-- A history. -/
def Cam.run (par : Fl) (c : Cam) (h : List Ev) : Cam := h.foldl (Cam.step par) c

end Ptusa.Camera
