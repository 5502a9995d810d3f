import Verif.RecFile.Model

/-! # What the file with the recipes loaded last is for -/
namespace Ptusa.RecFile.Spec

open RecFile

/-- A recipe which can be stored: its name is one line and its number is an `int`. -/
def Good (x : Obj) : Prop := '\n' ∉ x.name ∧ -2147483648 ≤ x.nmr ∧ x.nmr ≤ 2147483647

/-- When an event happens. -/
def time : Ev → Nat
  | .load _ _ _ now => now
  | .enable _ now => now
  | .eval now _ => now

/-- The clock does not go back, starting at `t`. -/
def Forward : Nat → List Ev → Prop
  | _, [] => True
  | t, e :: es => t ≤ time e ∧ Forward (time e) es

/-- Recipes which are loaded can be stored. -/
def GoodLoads (es : List Ev) : Prop := ∀ k o x now, Ev.load k o x now ∈ es → Good x

/-- The file can always be opened. -/
def Opens (es : List Ev) : Prop := ∀ now ok, Ev.eval now ok ∈ es → ok = true

/-- No recipe is loaded after the time `t`. -/
def NoLoadAfter (t : Nat) (es : List Ev) : Prop := ∀ k o x now, Ev.load k o x now ∈ es → now ≤ t

/-- The recipe loaded last into object `i`, `x` before the history; `k` adapters. -/
def last (kn i : Nat) : List Ev → Obj → Obj
  | [], x => x
  | .load k o y _ :: es, x => last kn i es (if o = i ∧ k < kn then y else x)
  | _ :: es, x => last kn i es x

/-- What the objects show after a restart of the project with `n` objects: those with a record show it, the others show that
no recipe was loaded. -/
def shown (n : Nat) (saved : List Obj) : List Obj :=
  (List.range n).map fun i => (saved[i]?).getD noRecipe

end Ptusa.RecFile.Spec
