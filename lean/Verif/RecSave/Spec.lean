import Verif.RecSave.Model

/-! # What saving of recipes and lists is for -/
namespace Ptusa.RecSave.Spec

open RecSave

/-- When an event happens. -/
def time {V : Type} : Ev V → Nat
  | .change _ _ now => now
  | .reload _ now => now
  | .eval now _ => now

/-- The clock does not go back, starting at `t`. -/
def Forward {V : Type} : Nat → List (Ev V) → Prop
  | _, [] => True
  | t, e :: es => t ≤ time e ∧ Forward (time e) es

/-- Files can always be opened. -/
def Opens {V : Type} (es : List (Ev V)) : Prop := ∀ now ok, Ev.eval now ok ∈ es → ok = true

/-- Nothing is changed. -/
def Quiet {V : Type} (es : List (Ev V)) : Prop := ∀ i v now, Ev.change i v now ∉ es

/-- A history which is made of `n` parts, each ending with an evaluation more than ten seconds after the end of the part before; the first
part begins after the time `t`. -/
inductive Parts {V : Type} : Nat → Nat → List (Ev V) → Prop
  | nil (t) : Parts 0 t []
  | part {n t es} (seg : List (Ev V)) (x : Nat) : t + 10000 < x → Parts n x es → Parts (n + 1) t (seg ++ .eval x true :: es)

/-- After a restart every item has the contents which it has now; `d` – the contents without a file. -/
def Kept {V : Type} (d : V) (q : Q V) : Prop := (start d (q.items.map (·.file)) 0).items.map (·.val) = q.items.map (·.val)

/-- The marks in a project with `n` recipes: those that were saved, new recipes are enabled. -/
def marksOf (n : Nat) (saved : List Int) : List Int := (List.range n).map fun i => (saved[i]?).getD 1

end Ptusa.RecSave.Spec
