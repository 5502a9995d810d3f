/-!
# The list of the washing lines

Model of the static list `Mdls[10]` and the counter `MdlsCNT` of `cipline_tech_object` (PAC/common/cip_tech_def.cpp lines 6011, 7498):
every line enters itself in `initline` (lines 1012-1013) under its number, the destructor (lines 295-361) does not take it out, and the
checks among the lines - conflicts of valves (lines 1426-1470), exclusion of the cleaning of the station (lines 1865-1881, 3126-3130), loading
of statistics (lines 2013-2034) - go over `Mdls[ 0 ]` … `Mdls[ MdlsCNT - 1 ]` and use each pointer.  Lines are identified by numbers of
objects, `nmr` is the number of the line in the project.  Writing outside the list, and using an empty, a missing or a stale pointer is
undefined behaviour, `none`.
-/
namespace Ptusa.CipLines

/-- `Mdls`, `MdlsCNT`, and the objects that were destroyed. -/
structure St where
  slots : List (Option Nat) := List.replicate 10 none
  cnt : Nat := 0
  freed : List Nat := []
  deriving DecidableEq

/-- `Mdls[ nmr - 1 ] = this; MdlsCNT++` (cip_tech_def.cpp lines 1012-1013). -/
def St.init (s : St) (id : Nat) (nmr : Int) : Option St :=
  if 1 ≤ nmr ∧ nmr ≤ 10 then some { s with slots := s.slots.set (nmr - 1).toNat (some id), cnt := s.cnt + 1 } else none

/-- The destructor, as far as it concerns the list (cip_tech_def.cpp lines 295-361). -/
def St.destroy (s : St) (id : Nat) : St := { s with freed := id :: s.freed }

/-- A pointer of the list that can be used. -/
def St.line (s : St) (i : Nat) : Option Nat :=
  match s.slots[i]? with
  | some (some id) => if id ∈ s.freed then none else some id
  | _ => none

/-- The loop over the lines from `i` on. -/
def St.loop (s : St) (i : Nat) : Nat → Option (List Nat)
  | 0 => some []
  | k + 1 => (s.line i).bind fun id => (s.loop (i + 1) k).map fun l => id :: l

/-- `for ( i = 0; i < MdlsCNT; i++ ) … Mdls[ i ]->…`: the lines the loop uses. -/
def St.visit (s : St) : Option (List Nat) := s.loop 0 s.cnt

/-- The lines are set up one after the other. -/
def St.setUp (s : St) : List (Nat × Int) → Option St
  | [] => some s
  | (id, nmr) :: t => (s.init id nmr).bind fun s => s.setUp t

end Ptusa.CipLines
