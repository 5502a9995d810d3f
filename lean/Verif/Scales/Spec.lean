import Verif.Scales.Model

/-!
# What the scales say
-/
namespace Ptusa.Scales

/-- The number sent by the module in two registers, high word first, two's complement. -/
def sent (a b : BitVec 16) : Int :=
  if a.toNat < 32768 then 65536 * a.toNat + b.toNat else 65536 * a.toNat + b.toNat - 4294967296

/-- The module signals faults by numbers next to the lower end of the range
(−2147483648 + code): number and state. -/
def faults : List (Int × Int) :=
  [(-2147483647, -1), (-2147483646, -2), (-2147483645, -3), (-2147483644, -4), (-2147483616, -5),
    (-2147483584, -6), (-2147483520, -7)]

/-- State for a number. -/
def faultOf (x : Int) : Int := (faults.lookup x).getD 0

/-- The number of a sequence of decimal digits. -/
def ofDigits (ds : List Nat) : Nat := ds.foldl (fun a d => 10 * a + d) 0

/-- Digits as characters. -/
def enc (ds : List Nat) : List Byte := ds.map fun d => BitVec.ofNat 8 (48 + d)

/-- The number written as the digits `i`, a point and the digits `f`. -/
def number (i f : List Nat) : Rat := (ofDigits (i ++ f) : Nat) / 10 ^ f.length

/-- Digits. -/
def Digits (ds : List Nat) : Prop := ∀ d ∈ ds, d < 10

/-- The volume of a tank with a conical bottom filled up to `h`. -/
def coneV (pi r hCone h : Rat) : Rat :=
  if h ≤ hCone then pi * (h * (r / hCone)) ^ 2 * h / 3 else pi * r ^ 2 * hCone / 3 + pi * r ^ 2 * (h - hCone)

end Ptusa.Scales
