import Mathlib.Data.Nat.Log
import Mathlib.Tactic.Linarith

/-!
# Virtual counter

Model of `virtual_counter` (PAC/common/device/base.h lines 859-913, base.cpp lines 529-685).  The relative value is a
`float`; it only takes whole values here (values set by the operator with `V` are not modelled), which are rounded to
24 significant bits, ties to even.  Simplification: no overflow to infinity (which is out of reach: the value stops
growing long before).
-/
namespace Ptusa.Counter

/-- Rounding of a whole number to a `float`: 24 significant bits, to nearest, ties to even. -/
def rnd (n : Nat) : Nat :=
  if n < 2 ^ 24 then n
  else
    let e := Nat.log 2 n - 23
    let q := n / 2 ^ e
    let r := n % 2 ^ e
    (if r > 2 ^ (e - 1) ∨ (r = 2 ^ (e - 1) ∧ q % 2 = 1) then q + 1 else q) * 2 ^ e

/-- State of a virtual counter (base.h lines 904-913; `value` and `state` are those of `device`). -/
structure Ctr where
  value : Nat := 0
  state : Int := 1
  last : BitVec 32 := 0
  abs : BitVec 32 := 0
  absLast : BitVec 32 := 0
  flow : Rat := 0
  first : Bool := true
  deriving DecidableEq

/-- `eval` (base.cpp lines 633-657). -/
def Ctr.eval (c : Ctr) (r a : BitVec 32) (f : Rat) : Ctr :=
  let c :=
    if !c.first then
      let c := if r > c.last then { c with value := rnd (c.value + rnd (r - c.last).toNat) } else c
      if a > c.absLast then { c with abs := c.abs + (a - c.absLast) } else c
    else { c with first := false }
  { c with last := r, absLast := a, flow := f }

/-- `reset` (base.cpp lines 580-583), also `direct_off` (547-550). -/
def Ctr.reset (c : Ctr) : Ctr := { c with value := 0 }

/-- `abs_reset` (base.cpp lines 602-606). -/
def Ctr.absReset (c : Ctr) : Ctr := { c with abs := 0 }

/-- `set` (base.cpp lines 626-631). -/
def Ctr.set (c : Ctr) (v a : BitVec 32) (f : Rat) : Ctr := { c with value := rnd v.toNat, abs := a, flow := f }

/-- `start` (base.cpp lines 575-578), also `direct_on` (542-545). -/
def Ctr.start (c : Ctr) : Ctr := { c with state := 1 }

/-- `pause` (base.cpp lines 570-573). -/
def Ctr.pause (c : Ctr) : Ctr := { c with state := 2 }

/-- `set_cmd` with a property beginning with `A` (base.cpp lines 608-624); the command value is a number of
the range of the counter. -/
def Ctr.cmdAbs (c : Ctr) (a : BitVec 32) : Ctr := { c with abs := a }

/-- `set_cmd` with a property beginning with `F` (base.cpp lines 608-624). -/
def Ctr.cmdFlow (c : Ctr) (f : Rat) : Ctr := { c with flow := f }

/-- `get_quantity` (base.cpp lines 585-588); the conversion of a value out of range is undefined. -/
def Ctr.quantity (c : Ctr) : Option Nat := if c.value < 2 ^ 32 then some c.value else none

/-- `get_abs_quantity` (base.cpp lines 597-600). -/
def Ctr.absQuantity (c : Ctr) : Nat := c.abs.toNat

/-- What is done to a counter. -/
inductive Op where
  | eval (r a : BitVec 32) (f : Rat)
  | reset | absReset | start | pause
  | set (v a : BitVec 32) (f : Rat)
  | cmdAbs (a : BitVec 32)
  | cmdFlow (f : Rat)
  deriving DecidableEq

/-- One call. -/
def Ctr.step (c : Ctr) : Op → Ctr
  | .eval r a f => c.eval r a f
  | .reset => c.reset
  | .absReset => c.absReset
  | .start => c.start
  | .pause => c.pause
  | .set v a f => c.set v a f
  | .cmdAbs a => c.cmdAbs a
  | .cmdFlow f => c.cmdFlow f

/-- A history. -/
def Ctr.run (c : Ctr) (ops : List Op) : Ctr := ops.foldl Ctr.step c

end Ptusa.Counter
