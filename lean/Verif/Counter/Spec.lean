import Verif.Counter.Model

/-!
# What a counter should show
-/
namespace Ptusa.Counter

/-- The readings of the source in a history. -/
def readings (ops : List Op) : List Nat :=
  ops.filterMap fun | .eval r _ _ => some r.toNat | _ => none

/-- The absolute readings of the source in a history. -/
def absReadings (ops : List Op) : List Nat :=
  ops.filterMap fun | .eval _ a _ => some a.toNat | _ => none

/-- The sum of all increases between neighbouring readings (`-` is cut off at zero). -/
def increases (rs : List Nat) : Nat := (List.zipWith (fun b a => b - a) rs.tail rs).sum

/-- The operation does not set the relative counter. -/
def KeepsRelative (o : Op) : Prop := (∀ v a f, o ≠ .set v a f) ∧ o ≠ .reset

/-- The operation does not set the absolute counter. -/
def KeepsAbsolute (o : Op) : Prop := (∀ v a f, o ≠ .set v a f) ∧ o ≠ .absReset ∧ ∀ a, o ≠ .cmdAbs a

/-- What was passed since the readings were known last before: the last reading of `pre` and those of `post`. -/
def since (pre post : List Nat) : Nat := increases (pre.getLast?.toList ++ post)

end Ptusa.Counter
