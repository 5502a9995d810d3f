/-!
# Owning pointers

Model of `auto_smart_ptr` (common/util/smart_ptr.h lines 110-156) with its base `smart_ptr` (lines 24-105), which holds the singletons of the
program and the devices they own.  Objects and pointers are numbers; a pointer that was not yet assigned is null.  Deleting an object
which is deleted already is undefined behaviour, `none`.
-/
namespace Ptusa.SmartPtr

/-- What every pointer points to, and the objects deleted. -/
structure St where
  held : Nat → Option Nat := fun _ => none
  freed : List Nat := []

/-- Operations on pointers. -/
inductive Ev
  /-- `v = new_t` (lines 146-154), also the constructor from a pointer (lines 119-121). -/
  | assign (v : Nat) (o : Option Nat)
  /-- `v.free()` (lines 123-130), also the destructor (lines 132-135). -/
  | free (v : Nat)
  /-- `v.replace_without_free( new_t )` (lines 137-140). -/
  | replace (v : Nat) (o : Option Nat)
  /-- `auto_smart_ptr v( w )`: the copy constructor the compiler makes, which copies the pointer of the base (lines 40-42). -/
  | copy (v w : Nat)
  deriving DecidableEq

/-- A pointer is changed. -/
def St.put (s : St) (v : Nat) (o : Option Nat) : St := { s with held := fun x => if x = v then o else s.held x }

/-- `delete` of what a pointer points to. -/
def St.del (s : St) (v : Nat) : Option St :=
  match s.held v with
  | none => some s
  | some o => if o ∈ s.freed then none else some { s with freed := o :: s.freed }

/-- One operation. -/
def St.step (s : St) : Ev → Option St
  | .assign v o => (s.del v).map fun s => s.put v o
  | .free v => (s.del v).map fun s => s.put v none
  | .replace v o => some (s.put v o)
  | .copy v w => some (s.put v (s.held w))

/-- Operations in turn. -/
def St.run (s : St) : List Ev → Option St
  | [] => some s
  | e :: t => (s.step e).bind fun s => s.run t

end Ptusa.SmartPtr
