import Verif.CipFlow.Model

/-!
# What the valves of a washing line are for their user
-/
namespace Ptusa.CipFlow

/-- Acid and caustic meet: both are taken, both tanks are filled from the return, or what is taken from one tank can
come back to the other. -/
def V.Mixes (v : V) : Prop :=
  v.v02 = true ∧ v.v03 = true ∨ v.v08 = true ∧ v.v09 = true ∨ v.v02 = true ∧ v.v09 = true ∨
    v.v03 = true ∧ v.v08 = true

/-- The open ways of the return: tank of used water, acid, caustic, small tank, drain, neutralisation. -/
def V.ways (v : V) : List Nat :=
  (if v.v07 then [7] else []) ++ (if v.v08 then [8] else []) ++ (if v.v09 then [9] else []) ++
    (if v.v10 then [10] else []) ++ (if v.v11 then [11] else []) ++ (if v.v12 then [12] else [])

/-- The tanks the pump is connected to: small tank, acid, caustic, used water. -/
def V.sources (v : V) : List Nat :=
  (if v.v01 then [1] else []) ++ (if v.v02 then [2] else []) ++ (if v.v03 then [3] else []) ++
    (if v.v04 then [4] else [])

/-- Steps of the cleaning of the tanks of the station by themselves. -/
def SelfClean (s : Int) : Prop := 151 ≤ s ∧ s ≤ 188

/-- In these two steps of the self-cleaning the acid is pumped into the emptied caustic tank. -/
def AcrossTanks (s : Int) : Prop := s = 163 ∨ s = 164

/-- Steps in which the small tank is filled with water, the pump being off. -/
def WaterFill (s : Int) : Prop := s = 31 ∨ s = 61 ∨ s = 65 ∨ s = 71 ∨ s = 75 ∨ s = 81

/-- The next event is a cycle in which the line washes: it is neither locked nor stopped, and no command waits. -/
def Line.Washing (l : Line) : Prop := 0 < l.state ∧ l.ncmd = 0 ∧ l.blocked = false

/-- The tank a step sorts the return for: caustic in 24, 33, 34, 35 and acid in 44, 53, 54, 55. -/
def sorted (s : Int) : Option Tank :=
  if s = 24 ∨ s = 33 ∨ s = 34 ∨ s = 35 then some .caustic
  else if s = 44 ∨ s = 53 ∨ s = 54 ∨ s = 55 then some .acid
  else none

/-- The upper level sensor of a tank is active. -/
def TankFull (e : Env) : Tank → Prop | .caustic => e.lsh = true | .acid => e.lkh = true

/-- The concentration of the return is at least the minimum `P_CMIN_S`, `P_CMIN_K` for the tank. -/
def Concentrated (e : Env) : Tank → Prop | .caustic => e.cminS ≤ e.cS | .acid => e.cminK ≤ e.cK

/-- The return valve of a tank. -/
def V.back (v : V) : Tank → Bool | .caustic => v.v09 | .acid => v.v08

/-- The suction valve of a tank. -/
def V.suction (v : V) : Tank → Bool | .caustic => v.v03 | .acid => v.v02

/-- The washed object is of the same type in all cycles. -/
def SameType (b : Bool) (evs : List Ev) : Prop := ∀ e, Ev.cycle e ∈ evs → e.line = b

/-- During the history `post` after `pre` the line does not leave step `x`. -/
def Visit (c : Cfg) (pre post : List Ev) (x : Int) : Prop := ∀ q, q <+: post → (run c (pre ++ q)).step = x

/-- Steps that end when the washing liquid has come back: 7, 24, 35, 44, 55, 64, 74, 85. -/
def AwaitsReturn (x : Int) : Prop := x = 7 ∨ x = 24 ∨ x = 35 ∨ x = 44 ∨ x = 55 ∨ x = 64 ∨ x = 74 ∨ x = 85

end Ptusa.CipFlow
