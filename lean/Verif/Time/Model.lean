/-!
# Elapsed time: `PAC/linux/l_dtime.cpp`
-/
namespace Ptusa.Time

/-- `get_delta_millisec( time1 )` (`l_dtime.cpp:32-40`) when `get_millisec()` returns `now`.
`unsigned long` has `w` bits (64 on PC/PLCnext, 32 on the WAGO controllers); all arithmetic
wraps, `ULONG_MAX` is the all-ones word. The Windows variant (`w_dtime.cpp`) is not modelled. -/
def deltaMs {w : Nat} (now time1 : BitVec w) : BitVec w :=
  let now' := if now < time1 then now + 2 else now
  if time1 ≤ now' then now' - time1 else BitVec.allOnes w - time1 + now'

/-- `step::get_latest_eval_time` (`operation_mngr.cpp:1009-1012`) of a step initialised when the clock
showed `t0` (`step::init`, 975-983): `start_time` is a `u_int_4` (`operation_mngr.h:527`), the clock an
`unsigned long` of 64 bits. The same holds for the start time of an operation and for seat washing. -/
def stepElapsed (t0 now : BitVec 64) : BitVec 64 := deltaMs now ((t0.truncate 32).zeroExtend 64)

end Ptusa.Time
