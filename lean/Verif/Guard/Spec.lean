import Verif.Guard.Model

/-!
# Which devices an operation uses, and which of them have failed
-/
namespace Ptusa.Guard

open Operation (OpState)

/-- The device was given to the action, as a device of a group or of a seat. -/
def Act.owns (a : Act) (d : Nat) : Prop :=
  match a with
  | .plain g => ∃ x ∈ g, ∃ y ∈ x, d ∈ y
  | .seats u l => (∃ y ∈ u, d ∈ y) ∨ ∃ y ∈ l, d ∈ y

/-- The action drives no seats. -/
def Act.isPlain : Act → Prop
  | .plain _ => True
  | .seats _ _ => False

/-- The device has failed and its alarms are not suppressed. -/
def Fault (w : Nat → Dev) (d : Nat) : Prop := (w d).state < 0 ∧ (w d).suppressed = false

/-- A failed device of one of the actions. -/
def Faulty (w : Nat → Dev) (l : List Act) (d : Nat) : Prop := Fault w d ∧ ∃ a ∈ l, a.owns d

/-- The same without the actions that drive seats. -/
def FaultyPlain (w : Nat → Dev) (l : List Act) (d : Nat) : Prop := Fault w d ∧ ∃ a ∈ l, a.isPlain ∧ a.owns d

/-- The actions of the operation itself and of its main step. -/
def mainActs (c : Cfg) (r : OpState) : List Act :=
  c.mode ++ match r.main with
    | some m => c.steps m
    | none => []

/-- Those of the extra steps. -/
def extraActs (c : Cfg) (r : OpState) : List Act := r.extra.flatMap fun k => c.steps (k - 1)

/-- The steps have parameters for their durations, and none of them is positive. -/
def NoDuration (c : Cfg) (param : Int → Fl) : Prop :=
  c.durations ≠ [] ∧ ∀ n ∈ c.durations, 0 < n ∧ ∀ q, param n = .num q → q ≤ 0

/-- What devices were given to a group, in the order of the calls: `(device, group, subgroup)`. -/
def given (l : List (Nat × Nat × Nat)) (g s : Nat) : List Nat :=
  (l.filter fun x => decide (x.2.1 = g ∧ x.2.2 = s)).map fun x => x.1

/-- The devices of a subgroup. -/
def group (g : List (List (List Nat))) (i s : Nat) : List Nat := (g.getD i []).getD s []

/-- The seat groups are given in turn: each call names an existing group or the next one. -/
def InTurn : Nat → List (Nat × Nat) → Prop
  | _, [] => True
  | n, x :: l => x.2 ≤ n ∧ InTurn (max n (x.2 + 1)) l

/-- The signal for switching on came with the first of these evaluations and stays; the clock does not go back; the setting
for giving up is `W` ms. -/
structure Request (W : Nat) (l : List Idle) : Prop where
  signal : ∀ i ∈ l, i.signal = true
  clock : l.Pairwise fun i j => i.now.toNat ≤ j.now.toNat
  setting : ∀ i ∈ l, i.waitTime.toNat = W

/-- An attempt after the first one, made more than `W` ms after the first, is before position `j`. -/
def GivenUp (W : Nat) (l : List Idle) (j : Nat) : Prop :=
  ∃ (i0 : Idle) (m : Nat) (i : Idle), l[0]? = some i0 ∧ 0 < m ∧ m < j ∧ l[m]? = some i ∧ W < i.now.toNat - i0.now.toNat

end Ptusa.Guard
