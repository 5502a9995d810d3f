import Verif.CipStats.Model

/-!
# Reading the statistics of washed objects again

Model of the command `MCMD_RELOAD_WASH_STATS` (PAC/common/cip_tech_def.cpp 2011-2034): which object each line of the station has after it.  The
statistics and their file are those of `CipStats`.
-/
namespace Ptusa.StReload

open Ptusa.CipStats
open Ptusa.Registry (Name)

/-- A line of the station: whether `tech_type` is one of the two of car washes (cip_tech_def.h 19-20), `state != 0`, the program
`P_PROGRAM`, `loadedRecName`, `ncar1`.  Programs are whole numbers. -/
structure Line where
  car : Bool
  running : Bool
  prog : Nat
  recipe : Name
  number : Name

/-- The object the statistics of line `i` are looked for, when line `k` gets the command (lines 2019-2033): the kind is that of line `k`. -/
def target (lines : List Line) (k i : Nat) : Option Name :=
  match lines[k]?, lines[i]? with
  | some me, some l =>
    if l.running && l.prog != 512 && l.prog != 256 && l.prog != 2048 then some (if me.car then l.number else l.recipe) else none
  | _, _ => none

/-- The command given to line `k`. -/
def reload (lines : List Line) (k : Nat) (m : Mem) : Ev := .reload (target lines k) m

end Ptusa.StReload
