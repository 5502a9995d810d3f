import Verif.SmartPtr.Model

/-! # Ownership -/
namespace Ptusa.SmartPtr.Spec

open SmartPtr

/-- The object an operation hands over. -/
def given : Ev → Option Nat
  | .assign _ o => o
  | _ => none

/-- The objects handed over to pointers. -/
def objects (es : List Ev) : List Nat := es.filterMap given

/-- Only assigning and freeing. -/
def Plain : Ev → Prop
  | .assign _ _ | .free _ => True
  | _ => False

/-- The pointer an operation is on. -/
def target : Ev → Nat
  | .assign v _ | .free v | .replace v _ | .copy v _ => v

/-- What a pointer should show: the object of the last operation on it. -/
def shows (v : Nat) (es : List Ev) : Option Nat :=
  (es.reverse.find? (fun e => decide (target e = v))).bind given

/-- Every object handed over is held by exactly one pointer and not deleted, or deleted and held by none. -/
def Owned (es : List Ev) (s : St) : Prop :=
  ∀ o ∈ objects es, (o ∉ s.freed ∧ ∃ v, s.held v = some o ∧ ∀ w, s.held w = some o → w = v) ∨ (o ∈ s.freed ∧ ∀ w, s.held w ≠ some o)

end Ptusa.SmartPtr.Spec
