import Verif.CipStats.Model

/-!
# What is expected of the statistics

Independent of how texts are stored and of the form of the file: the statistics are a table, the file is a copy of it.
-/
namespace Ptusa.CipStats

open Ptusa.Tcp (Byte)
open Ptusa.Registry (Name)

/-- What is known of an object: last wash, its program, last acid wash, and the caustic washes since. -/
structure Stat where
  wash : Name
  prog : Name
  acid : Name
  caustic : Int
  deriving Repr, DecidableEq

/-- Nothing is known. -/
def Stat.fresh : Stat := { wash := unknown, prog := undetermined, acid := unknown, caustic := 0 }

/-- What the station shows of an object. -/
def Obj.view (o : Obj) : Option Stat := do
  some { wash := ← cstr o.wash, prog := ← cstr o.prog, acid := ← cstr o.acid, caustic := o.caustic }

/-- What the station shows for a name. -/
def look (b : Base) (n : Name) : Option Stat := (find n b).bind Obj.view

/-- The station as a table, with a copy of the table on disk. -/
structure Tab where
  mem : Name → Option Stat
  disk : Name → Option Stat
  at' : Nat → Option Name
  dirty : Bool

/-- The row of the object a line washes, changed. -/
def Tab.on (t : Tab) (i : Nat) (f : Stat → Stat) : Tab :=
  match t.at' i with
  | some n => { t with mem := fun m => if m = n then (t.mem m).map f else t.mem m }
  | none => t

/-- What an event does to the table.  The contents of memory and a loss of power while writing play no part. -/
def Tab.step (t : Tab) : Ev → Tab
  | .select i n _ =>
    { t with mem := fun m => if m = n then some ((t.mem m).getD Stat.fresh) else t.mem m, at' := upd t.at' i (some n) }
  | .car i n => { t with at' := upd t.at' i (if (t.mem n).isSome then some n else none) }
  | .caustic i => t.on i fun r => { r with caustic := r.caustic + 1 }
  | .acid i date => t.on i fun r => { r with caustic := 0, acid := date }
  | .finish i prog date reset =>
    let t := t.on i fun r => { r with prog, wash := date }
    { t with at' := upd t.at' i none, dirty := t.dirty || !reset }
  | .forget i => { t with at' := upd t.at' i none }
  | .cycle => if t.dirty then { t with disk := t.mem, dirty := false } else t
  | .locked => t
  | .reload washing _ =>
    { t with mem := t.disk, dirty := false,
             at' := fun i => (washing i).bind fun n => if (t.disk n).isSome then some n else none }
  | .restart _ _ => { t with mem := t.disk, dirty := false, at' := fun _ => none }
  | .crash _ _ _ => { t with mem := t.disk, dirty := false, at' := fun _ => none }

/-- A new station. -/
def Tab.init : Tab := { mem := fun _ => none, disk := fun _ => none, at' := fun _ => none, dirty := false }

def Tab.run (t : Tab) (h : List Ev) : Tab := h.foldl Tab.step t

/-- A text that fits into an array of `k` places. -/
def Fits (k : Nat) (s : Name) : Prop := (0 : Byte) ∉ s ∧ s.length < k

/-- The texts of an event fit: names of recipes and cars, dates, names of programs. -/
def Ev.Fit : Ev → Prop
  | .select _ n _ => Fits 96 n
  | .car _ n => Fits 96 n
  | .acid _ d => Fits 72 d
  | .finish _ p d _ => Fits 72 p ∧ Fits 72 d
  | .reload w _ => ∀ i n, w i = some n → Fits 96 n
  | _ => True

/-- The power is not lost while the file is written. -/
def Ev.Calm : Ev → Prop
  | .crash _ _ _ => False
  | _ => True

/-! ### Caustic washes since the last acid wash -/

/-- Events other than a restart, a reading of the file and the name of a car. -/
def Ev.Quiet : Ev → Prop
  | .car _ _ => False
  | .reload _ _ => False
  | .restart _ _ => False
  | .crash _ _ _ => False
  | _ => True

/-- The object a line washes after an event, if it was `a` before. -/
def chosen (a : Nat → Option Name) : Ev → Nat → Option Name
  | .select i n _ => upd a i (some n)
  | .finish i _ _ _ => upd a i none
  | .forget i => upd a i none
  | _ => a

/-- The object a line washes after a history. -/
def chosenAll (h : List Ev) : Nat → Option Name := h.foldl chosen fun _ => none

/-- The circulations of caustic of the object `x` since its last one of acid after an event, if there were `c` before. -/
def tally (x : Name) (a : Nat → Option Name) (c : Nat) : Ev → Nat
  | .caustic i => if a i = some x then c + 1 else c
  | .acid i _ => if a i = some x then 0 else c
  | _ => c

/-- The circulations of caustic of the object `x` since its last one of acid after a history. -/
def washes (x : Name) (a : Nat → Option Name) (c : Nat) : List Ev → Nat
  | [] => c
  | e :: es => washes x (chosen a e) (tally x a c e) es

end Ptusa.CipStats
