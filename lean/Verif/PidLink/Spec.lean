import Verif.PidLink.Model

/-! # Chains of regulators -/
namespace Ptusa.PidLink.Spec

open PidLink

/-- A regulator which passes its output on to `b`. -/
def Passes {V : Type} (net : Net V) (a b : Nat) : Prop :=
  (net a).manual = false ∧ (net a).reg = true ∧ (net a).sensor = true ∧ (net a).act = some b

/-- The devices from `a` on, each passing its output to the next one; the last one passes nothing. -/
inductive Chain {V : Type} (net : Net V) : Nat → List Nat → Prop
  | last (a : Nat) : (∀ b, ¬ Passes net a b) → Chain net a [a]
  | step (a b : Nat) (p : List Nat) : Passes net a b → Chain net b p → Chain net a (a :: p)

/-- The value the device at place `i` of a chain is given, when the first is given `v`. -/
def given {V : Type} (out : Nat → V → V) (v : V) : List Nat → Nat → V
  | _, 0 => v
  | [], _ + 1 => v
  | a :: p, i + 1 => given out (out a v) p i

/-- What setting the first device of the chain has to do: every device of the chain which is not in manual mode has the value given to it, every one
but the first is on, and nothing else changes. -/
def Done {V : Type} (out : Nat → V → V) (v : V) (p : List Nat) (net r : Net V) : Prop :=
  (∀ i x, p[i]? = some x → (net x).manual = false → (r x).value = given out v p i ∧ (0 < i → (r x).st = .on)) ∧
  (∀ x, x ∉ p ∨ (net x).manual = true → r x = net x)

end Ptusa.PidLink.Spec
