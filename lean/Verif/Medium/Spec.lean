import Verif.Medium.Model

/-!
# What the recipes of the media should do

Written without the functions of the model, except `trunc`, the conversion of a `float` to an `int`.
-/
namespace Ptusa.Medium.Spec

open CipRec (trunc)

/-- A value as it is read: the word that is all ones means "not set" and is shown as -1000. -/
def shown (w : Word) : Word := if w = 0xFFFFFFFF then 0xC47A0000 else w

/-- Value `k` of recipe `r`. -/
def value (s : Sys) (m : Med) (r k : Nat) : Word := shown ((s.mgr m).mem (r * 32 + 8 + k))

/-- The values of a recipe that describe the medium, in order: kind, concentration wanted, least concentration, greatest concentration
for the drain, temperature coefficient, concentration and density of the concentrate, concentration and conductivity at the
point given. -/
def ofRecipe (s : Sys) (m : Med) (r : Nat) : List Word := (List.range 9).map fun j => value s m r (j + 2)

/-- The parameters of the station with this meaning, in the same order. -/
def numbers : Med → List Nat
  | .caustic => [33, 1, 2, 3, 12, 13, 15, 17, 18]
  | .acid => [34, 4, 5, 6, 11, 14, 16, 19, 20]

/-- What is in use for a medium. -/
def inUse (s : Sys) (m : Med) : List Word := (numbers m).map s.par

/-- The parameter with the number of the recipe chosen. -/
def choice : Med → Nat
  | .caustic => 36
  | .acid => 37

/-- Events whose numbers are numbers: values of recipes 1 to 24, orders and choices that fit an `int`. -/
def Fair : Ev → Prop
  | .set _ idx v => 1 ≤ idx.toNat ∧ idx.toNat ≤ 24 ∧ (idx = 2 → trunc v ≠ none)
  | .par idx v => idx = 36 ∨ idx = 37 → trunc v ≠ none
  | _ => True

/-- A start with files and parameters of this kind. -/
def FairStart (mem : Med → Nat → Word) (par : Nat → Word) : Prop :=
  (∀ m r, r < 10 → mem m (r * 32 + 9) = 0xFFFFFFFF ∨ trunc (mem m (r * 32 + 9)) ≠ none) ∧ trunc (par 36) ≠ none ∧ trunc (par 37) ≠ none

/-- A history of the program: the start, fair events and a cycle at the end. -/
def After (s : Sys) : Prop :=
  ∃ mem par h na nc s0, FairStart mem par ∧ (∀ e ∈ h, Fair e) ∧ start mem par = some s0 ∧ s0.run (h ++ [.eval na nc]) = some s

/-- A history that may end anywhere. -/
def Hist (s : Sys) : Prop :=
  ∃ mem par h s0, FairStart mem par ∧ (∀ e ∈ h, Fair e) ∧ start mem par = some s0 ∧ s0.run h = some s

/-- Going to the next or to the previous recipe of a medium. -/
def Moves (m : Med) : Ev → Prop
  | .next x _ => x = m
  | .prev x _ => x = m
  | _ => False

/-- An event that is no `PAR_MAIN` command. -/
def NoPar : Ev → Prop
  | .par _ _ => False
  | _ => True

end Ptusa.Medium.Spec
