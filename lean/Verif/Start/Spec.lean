import Verif.Start.Model
import Verif.Guard.Spec

/-!
# When an operation may be switched on
-/
namespace Ptusa.Start
open Guard (given addDev emptyGroups)

/-- The devices given to the actions of a step: device, group, subgroup, in the order of the calls. -/
structure Calls where
  diDo : List (Nat × Nat × Nat) := []
  aiAo : List (Nat × Nat × Nat) := []
  inverted : List (Nat × Nat × Nat) := []
  required : List (Nat × Nat × Nat) := []

/-- An action with devices given to it. -/
def fill (l : List (Nat × Nat × Nat)) : List (List (List Nat)) :=
  l.foldl (fun g x => addDev 1 g x.1 x.2.1 x.2.2) (emptyGroups 1)

/-- The step with these devices. -/
def Calls.step (c : Calls) : Step := ⟨fill c.diDo, fill c.aiAo, fill c.inverted, fill c.required⟩

/-- The kinds of digital inputs which may control outputs. -/
def digital : List Ty := [.DI, .SB, .GS, .LS, .FS]

/-- The kinds of analog inputs which may control outputs. -/
def analog : List Ty := [.AI, .PT, .LT, .FQT, .QT, .TE]

/-- Each pair or group of an action for controlling outputs begins with an input of the right kind. -/
def Inputs (w : Nat → Dev) (kinds : List Ty) (l : List (Nat × Nat × Nat)) : Prop :=
  ∀ k d, (given l 0 k).head? = some d → (w d).ty ∈ kinds

/-- The groups of a step are right. -/
def Calls.Right (w : Nat → Dev) (c : Calls) : Prop :=
  Inputs w digital c.diDo ∧ Inputs w analog c.aiAo ∧ Inputs w digital c.inverted

/-- What a refusal says of a device is true. -/
def Truthful (w : Nat → Dev) (mode : Calls) (steps : List Calls) : Kind × Nat → Prop
  | (.notDigital, d) => (w d).ty ∉ digital ∧ ∃ c ∈ steps ++ [mode], ∃ k, (given c.diDo 0 k).head? = some d ∨ (given c.inverted 0 k).head? = some d
  | (.notAnalog, d) => (w d).ty ∉ analog ∧ ∃ c ∈ steps ++ [mode], ∃ k, (given c.aiAo 0 k).head? = some d
  | (.noSignal, d) => (w d).active = false ∧ d ∈ given mode.required 0 0

end Ptusa.Start
