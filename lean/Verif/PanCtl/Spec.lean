import Verif.PanCtl.Model

/-!
# What the panel is to show
-/
namespace Ptusa.PanCtl
open Tcp (Byte Buf)

/-- What a line is doing. -/
inductive Doing where
  | idle | washing | paused | blocked | fault (n : Nat)
  deriving DecidableEq, Repr

/-- The meaning of a state in the program. -/
def doing (s : Int) : Doing :=
  if s = -1 then .paused else if s = -1000 then .blocked else if s < 0 then .fault s.natAbs else if s = 0 then .idle else .washing

/-- How a panel reads the number. -/
def panel (n : Int) : Doing :=
  if n = 0 then .idle else if n = 50 then .paused else if n = 90 then .blocked else if n = 80 then .fault 2
  else if n = 1 then .washing else .fault n.natAbs

/-- The states that the program gives a line by itself: off, on, paused, blocked and the faults (cip_tech_def.h 214-237). -/
def ownStates : List Int :=
  [0, 1, -1, -1000, -2, -9, -10, -11, -12, -13, -14, -15, -16, -17, -18, -19, -20, -30, -31, -32, -35, -36, -37, -38, -39, -40, -41, -100]

/-- The register `i` of an answer, as the panel takes it: the higher byte first, with a sign. -/
def register (b : Buf) (i : Nat) : Int := (b (3 + 2 * i) ++ b (4 + 2 * i) : BitVec 16).toInt

/-- The 32 bits in two registers: the lower half first. -/
def registers (b : Buf) (i : Nat) : BitVec 32 := b (5 + 2 * i) ++ b (6 + 2 * i) ++ b (3 + 2 * i) ++ b (4 + 2 * i)

/-- The last value written to the register `r` in a row of requests, each a first register and values. -/
def lastWritten (r : Nat) : List (Nat × List (BitVec 16)) → Option (BitVec 16)
  | [] => none
  | q :: qs =>
    match lastWritten r qs with
    | some v => some v
    | none => if q.1 ≤ r then q.2[r - q.1]? else none

end Ptusa.PanCtl
