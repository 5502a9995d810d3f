import Verif.Recipe.Model

/-!
# Specification of recipes
-/
namespace Ptusa.Recipe

/-- A storage as the constructor makes it: as many recipes and parameters as declared (32-bit `int`s). -/
structure WF (s : Storage) : Prop where
  len : s.recipes.length = s.count
  plen : ∀ r ∈ s.recipes, r.params.length = s.pcount
  small : s.count < 2 ^ 31 ∧ s.pcount < 2 ^ 31

/-- The table a user has in mind: a value for each recipe and parameter, and whether something really
changed. -/
structure Table where
  val : Int → Int → Fl
  changed : Bool

/-- The pair is inside a table of the given size. -/
def InRange (count pcount : Nat) (r p : Int) : Prop := 1 ≤ r ∧ r ≤ count ∧ 1 ≤ p ∧ p ≤ pcount

instance (count pcount : Nat) (r p : Int) : Decidable (InRange count pcount r p) := by
  unfold InRange; infer_instance

/-- Storing a value in the table. -/
def Table.set (count pcount : Nat) (t : Table) (e : Int × Int × Fl) : Table :=
  if InRange count pcount e.1 e.2.1 then
    { val := fun r p => if r = e.1 ∧ p = e.2.1 then e.2.2 else t.val r p,
      changed := t.changed || !(Fl.eq (t.val e.1 e.2.1) e.2.2) }
  else t

/-- The storage shows the table. -/
def Shows (s : Storage) (t : Table) : Prop :=
  s.changed = t.changed ∧
  ∀ r p : BitVec 32, getRecPar s r p =
    some (if InRange s.count s.pcount r.toInt p.toInt then t.val r.toInt p.toInt else 0)

/-- A power of ten, also a negative one. -/
def Pow10 (u : Rat) : Prop := ∃ n : Nat, u = 10 ^ n ∨ u * 10 ^ n = 1

/-- `r` is `q` rounded to six significant digits, as numbers are printed by default. -/
def Rounded6 (q r : Rat) : Prop :=
  (q = 0 ∧ r = 0) ∨ ∃ u, Pow10 u ∧ u * 100000 ≤ |q| ∧ |q| < u * 1000000 ∧
    ∃ m : Int, r = m * u ∧ |q - r| ≤ u / 2

/-- Printing of numbers. -/
def Prints (pr : Fl → Fl) : Prop := ∀ q, ∃ r, pr (.num q) = .num r ∧ Rounded6 q r

/-- Content that can be written to a file line by line. -/
structure Printable (s : Storage) : Prop where
  pcount : 0 < s.pcount
  names : ∀ r ∈ s.recipes, '\n' ∉ r.name.toList
  nums : ∀ r ∈ s.recipes, ∀ v ∈ r.params, v.IsNum

/-- What may be on the disk during a save (`std::ofstream` empties the file, then the content follows in pieces of
any size), params_recipe_manager.cpp 288-311. -/
def onDisk (old new : File) : List File := old :: new.inits

/-- The mapping fits into the recipe and into the object by the test of the code. -/
def Map.Fits (s : Storage) (o : Obj) (m : Map) : Prop :=
  m.startRec + m.quantity ≤ s.pcount + 1 ∧ m.startObj + m.quantity ≤ o.par.length

/-- The mapping fits into the recipe and into the object. -/
def Map.Inside (s : Storage) (o : Obj) (m : Map) : Prop :=
  m.startRec + m.quantity ≤ s.pcount + 1 ∧ m.startObj + m.quantity ≤ o.par.length + 1

/-- What `addMap` accepts, params_recipe_manager.cpp 404-416. -/
def Map.Valid (m : Map) : Prop := 0 < m.startRec ∧ 0 < m.startObj ∧ 0 < m.quantity

/-- Parameter `k` (from 1) of the object is filled from parameter `j` of the recipe: by the last mapping that
covers it. -/
def Source (maps : List Map) (k j : Nat) : Prop :=
  ∃ (n : Nat) (m : Map), maps[n]? = some m ∧ m.startObj ≤ k ∧ k < m.startObj + m.quantity ∧
    j = m.startRec + (k - m.startObj) ∧
    ∀ (n' : Nat) (m' : Map), n < n' → maps[n']? = some m' →
      ¬ (m'.startObj ≤ k ∧ k < m'.startObj + m'.quantity)

/-- The published list is what it should be: exactly the enabled recipes, in order, each once. -/
def Current (s : Storage) (enabled : List Bool) (l : List (Nat × String)) : Prop :=
  (∀ (n : Nat) (nm : String), (n, nm) ∈ l ↔ ∃ (i : Nat) (r : Rec), n = i + 1 ∧
      s.recipes[i]? = some r ∧ r.name = nm ∧ enabled[i]? = some true) ∧
  l.Pairwise fun x y => x.1 < y.1

/-- Everything that happens to a storage used through one adapter with one list. -/
inductive Ev
  | cmd (c : Cmd)
  | eval (due : Bool)

/-- Commands other than reloading the file. -/
def Ev.noReload : Ev → Prop
  | .cmd (.reload _) => False
  | _ => True

/-- One event. -/
def stepEv (m : Mgr) : Ev → Option Mgr
  | .cmd c => setCmd 0 c m
  | .eval due => some (evaluate due m)

/-- A history. -/
def runEv : List Ev → Mgr → Option Mgr
  | [], m => some m
  | e :: es, m => (stepEv m e).bind (runEv es)

end Ptusa.Recipe
