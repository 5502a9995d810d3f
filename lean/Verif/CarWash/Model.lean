/-!
# Statistics of a car wash

Model of what a line for cars does with the numbers of the cars, the switches of their places and the statistics: the panel (PAC/common/modbus_serv.cpp 720-737, 828-858),
commands of the server (PAC/common/cip_tech_def.cpp 564-592, 652-690), `setSwitch` (6764-6782), the start of a program (1847-1904), the end of a circulation (5534-5547), the end of a
wash (2893-2917 with `ResetWP` 3231-3252, `resetRecipeName` 1121-1129, `resetCarNumber` 6740-6746), a reset of an idle line (1808-1820); `get_obj_stats` and `stats_if_exists`
(PAC/common/cip_stats.cpp 84-113).

Left out: the texts as bytes (see `Text`, `CipStats`), the dates, the file of the statistics (see C99), the refusal when an acid wash is due (see C91) or another line cleans itself
(see C90), and loading the statistics again (see C218).  A circulation with caustic or acid occurs in washes only, not in the programs of the station.
-/
namespace Ptusa.CarWash

abbrev Name := List Char

/-- A line: whether `state` is not 0, whether the program is one of the station, `ncar1` … `ncar4`, `switch1` … `switch4`, `objectstats` (`none`: `emptystats`), the
caustic washes of each object in the statistics (`none`: not there). -/
structure St where
  active : Bool := false
  service : Bool := false
  car : Fin 4 → Name := fun _ => []
  sw : Fin 4 → Bool := fun _ => false
  obj : Option Name := none
  count : Name → Option Nat := fun _ => none

inductive Ev where
  /-- The panel writes the number of the car at a place. -/
  | panel (i : Fin 4) (n : Name)
  /-- The server does. -/
  | server (i : Fin 4) (n : Name)
  | switch (i : Fin 4) (v : Bool)
  /-- The command to start a wash, or a program of the station. -/
  | start (service : Bool)
  /-- The end of a circulation. -/
  | caustic
  | acid
  /-- The end of a wash. -/
  | finish
  /-- The command to reset an idle line. -/
  | clear
  deriving Repr, DecidableEq

def upd {α : Type} (f : Fin 4 → α) (i : Fin 4) (v : α) : Fin 4 → α := fun j => if j = i then v else f j

/-- `stats_if_exists` (cip_stats.cpp 102-113). -/
def St.ifExists (s : St) (n : Name) : Option Name := if s.count n = none then none else some n

/-- `get_obj_stats` (cip_stats.cpp 84-100) for the name of the first car. -/
def St.getStats (s : St) : St :=
  { s with obj := some (s.car 0), count := fun n => if n = s.car 0 ∧ s.count n = none then some 0 else s.count n }

/-- Taking over the number of a car; the first one also takes its statistics (cip_tech_def.cpp 568-581, modbus_serv.cpp 839-853). -/
def St.setCar (s : St) (i : Fin 4) (n : Name) : St :=
  if i = 0 then { s with car := upd s.car 0 n, obj := s.ifExists n } else { s with car := upd s.car i n }

/-- `objectstats->objcausticwashes` (cip_tech_def.cpp 5536-5546). -/
def St.counted (s : St) (f : Nat → Nat) : St :=
  { s with count := fun n => if s.obj = some n then (s.count n).map f else s.count n }

def step (s : St) : Ev → St
  | .panel i n => if i = 0 ∧ s.active then s else s.setCar i n
  | .server i n => s.setCar i n
  | .switch i v => if s.active then s else { s with sw := upd s.sw i v }
  | .start service =>
    if s.active then s
    else if service then { s with active := true, service := true, sw := fun _ => false }
    else if s.sw 0 || s.sw 1 || s.sw 2 || s.sw 3 then { s.getStats with active := true, service := false }
    else s
  | .caustic => if s.active && !s.service then s.counted (· + 1) else s
  | .acid => if s.active && !s.service then s.counted (fun _ => 0) else s
  | .finish => if s.active then { s with active := false, car := fun _ => [], sw := fun _ => false, obj := none } else s
  | .clear => if s.active then s else { s with car := fun _ => [], obj := none }

def run (h : List Ev) : St := h.foldl step {}

end Ptusa.CarWash
