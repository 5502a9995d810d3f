import Verif.IolSens.Model

/-!
# What the sensors say

By their descriptions (and the comments in the source): values are sent high byte first.
-/
namespace Ptusa.IolSens

/-- A number of 16 bits, high byte first. -/
def be16 (hi lo : Byte) : Nat := 256 * hi.toNat + lo.toNat

/-- A number of 32 bits, highest byte first. -/
def be32 (a b c d : Byte) : Nat := 16777216 * a.toNat + 65536 * b.toNat + 256 * c.toNat + d.toNat

/-- Two's complement with `n` bits. -/
def signed (n : Nat) (x : Nat) : Int := if 2 * x < 2 ^ n then x else x - 2 ^ n

/-- Bar per unit. -/
def PArticle.bar : PArticle → Rat
  | .pi2715 => 0.001
  | .pi2794 => 0.01
  | .pi2797 => 0.001
  | .pm1704 => 0.001
  | .pm1705 => 0.001
  | .pm1706 => 0.0001
  | .pm1707 => 0.0001
  | .pm1708 => 0.00001
  | .pm1709 => 0.0001
  | .pm1715 => 0.001
  | .fes8001446 => 0.000610388818
  | .default => 0

/-- Sensors that send 14 bits of the value and two switching states in one word. -/
def PArticle.short : PArticle → Bool
  | .pi2715 | .pi2794 | .pi2797 | .fes8001446 => true
  | _ => false

/-- Sensors that send a word with the value and a word with the status. -/
def PArticle.long : PArticle → Bool
  | .pm1704 | .pm1705 | .pm1706 | .pm1707 | .pm1708 | .pm1709 | .pm1715 => true
  | _ => false

/-- The pressure measured by a sensor that sent `d`, in bar. -/
def PArticle.measured (a : PArticle) (d : Img) : Rat :=
  if a.short then a.bar * (signed 14 (be16 (d 0) (d 1) / 4) : Int)
  else if a.long then a.bar * (signed 16 (be16 (d 0) (d 1)) : Int)
  else 0

/-- Its status. -/
def PArticle.status (a : PArticle) (d : Img) : Nat := if a.long then (d 3).toNat / 16 else 0

end Ptusa.IolSens
