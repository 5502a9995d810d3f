import Verif.ObjText.Model

/-!
# The description of a washing line for the server and the commands of the server

`cipline_tech_object::save_device` (PAC/common/cip_tech_def.cpp 362-485), both `set_cmd` (487-603, 605-700), `setSwitch`
(6764-6785), the creation of the parameters of a station (80-85, 274-293).

Simplifications. The buffer is large enough. A text is a list of characters without zeros; in UTF-8 a character has one to four
bytes. A line is the record of what these functions read. The recipes of a line are lists of floats: how they lie in the memory,
the replacement of 0xFFFFFFFF by -1000 and values outside of a recipe are modelled in `CipRec`; an index outside of a recipe is
undefined behaviour here. `( float ) val` is a parameter (`fl`). The names of recipes are set as in `CipRec`; not repeated here.
-/
namespace Ptusa.CipText
open SaveDev LuaText ObjText

/-- `cip_object_stats`: what the description shows of the statistics of an object. -/
structure Stats where
  lastWash : Txt
  lastProgram : Txt
  caustic : Int
  lastAcid : Txt

/-- A medium of the station with its recipes: list, number and name of the recipe, name of the medium, values of the recipe. -/
structure Medium where
  list : Txt
  nmr : Int
  name : Txt
  recName : Txt
  par : List Fv

/-- Where `scparams` points: nowhere, to the parameters of the station (`parpar`), to parameters of its own. -/
inductive Ptr
  | null
  | main
  | own
  deriving DecidableEq

/-- What all lines of a station share: static members (cip_tech_def.cpp 7486-7500) and the base of statistics; `known`: the
statistics which `stats_if_exists` finds for a name (the empty ones if there are none). -/
structure Stn where
  main : List Fv
  own : List Fv
  sc : Ptr
  scEnabled : Bool
  caustic : Medium
  acid : Medium
  causticLoaded : Int
  acidLoaded : Int
  known : Txt → Stats

/-- A washing line. -/
structure Line where
  name : Txt
  number : Nat
  cmd : Int
  state : Int
  step : Int
  loadedName : Txt
  editName : Txt
  lastNmr : Int
  lastName : Txt
  program : Txt
  programs : Txt
  recipes : Txt
  car1 : Txt
  car2 : Txt
  car3 : Txt
  car4 : Txt
  switch1 : Int
  switch2 : Int
  switch3 : Int
  switch4 : Int
  idle : Nat
  parF : List Fv
  parU : List Nat
  rtF : List Fv
  rtU : List Nat
  stubF : Fv
  stubU : Nat
  /-- the values of all recipes of the line, the recipe which is edited, the recipe which is loaded (-1: none) -/
  recs : List (List Fv)
  cur : Nat
  loaded : Int
  stats : Stats

/-! ## The description -/

/-- One call of `sprintf` of the description: an integer, a text, an integer between apostrophes, parameters, values of a recipe. -/
inductive Row
  | int (key : String) (z : Int)
  | str (key : String) (s : Txt)
  | quoted (key : String) (z : Int)
  | floats (key : String) (l : List Fv)
  | nats (key : String) (l : List Nat)
  | recipe (key : String) (l : List Fv)
  | idle (ms : Nat)

/-- `%02lu`. -/
def two (n : Nat) : Txt := if n < 10 then '0' :: natText n else natText n

/-- The time without work (cip_tech_def.cpp 408-422). -/
def idleText (ms : Nat) : Txt :=
  let s := ms / 1000
  two (s / (60 * 60)) ++ ':' :: two (s / 60 % 60) ++ ':' :: two (s % 60)

/-- The beginning of a table of values of a recipe and the values, up to the last brace (cip_tech_def.cpp 441-445). -/
def tableText (key : Txt) (l : List Fv) : Txt :=
  '\t' :: key ++ " = \n\t{\n\t\t".toList ++ itemsText (l.map (fixed 2)) ++ "\n\t}".toList

/-- The text of a row. `none`: the conversion of a parameter to `int` is undefined. -/
def Row.text : Row → Option Txt
  | .int key z => some (oneText key.toList (intText z))
  | .str key s => some (oneText key.toList ('\'' :: s ++ ['\'']))
  | .quoted key z => some (oneText key.toList ('\'' :: intText z ++ ['\'']))
  | .floats key l => (floatsText l).map (listText key.toList)
  | .nats key l => some (listText key.toList (l.map natText))
  | .recipe key l => some (tableText key.toList l ++ [',', '\n'])
  | .idle ms => some ("\tIDLE_TIME = ".toList ++ ('\'' :: idleText ms ++ ['\'']) ++ [',', '\n'])

/-- The texts of rows, one after another. -/
def rowsText : List Row → Option Txt
  | [] => some []
  | r :: l => match r.text, rowsText l with
    | some a, some b => some (a ++ b)
    | _, _ => none

/-- `lineRecipes->getValue( i - 1 )` for all `i`. -/
def Line.recipe (l : Line) : List Fv := l.recs.getD l.cur []

/-- The first rows (cip_tech_def.cpp 369-429). -/
def Line.rows (l : Line) : List Row :=
  [.int "CMD" l.cmd, .int "STATE" l.state, .int "OPER" l.step, .str "LOADED_REC" l.loadedName, .str "CUR_REC" l.editName,
   .int "LASTRECNMR" l.lastNmr, .str "LASTRECNAME" l.lastName, .str "CUR_PRG" l.program, .str "PRG_LIST" l.programs,
   .str "REC_LIST" l.recipes, .str "NCAR" l.car1, .str "NCAR1" l.car1, .str "NCAR2" l.car2, .str "NCAR3" l.car3,
   .str "NCAR4" l.car4, .int "SWITCH1" l.switch1, .int "SWITCH2" l.switch2, .int "SWITCH3" l.switch3, .int "SWITCH4" l.switch4,
   .idle l.idle, .floats "S_PAR_F" l.parF, .nats "S_PAR_UI" l.parU, .floats "RT_PAR_F" l.rtF, .nats "RT_PAR_UI" l.rtU]

/-- The rows of the parameters of the station (cip_tech_def.cpp 431-439): `scparams` is saved under its own name. -/
def Stn.rows (s : Stn) : List Row :=
  .floats "PAR_MAIN" s.main ::
    if s.scEnabled then match s.sc with
      | .null => []
      | .main => [.floats "PAR_MAIN" s.main]
      | .own => [.floats "PAR_SELFCLEAN" s.own]
    else []

/-- The recipe which is edited and the statistics (cip_tech_def.cpp 440-453). -/
def Line.rows2 (l : Line) : List Row :=
  [.recipe "REC_PAR" l.recipe, .str "OBJSTATS_LASTWASH" l.stats.lastWash, .str "OBJSTATS_LASTPROGRAM" l.stats.lastProgram,
   .int "OBJSTATS_CAUSTICCOUNT" l.stats.caustic, .str "OBJSTATS_LASTACIDWASH" l.stats.lastAcid]

/-- The media (cip_tech_def.cpp 458-477), without the last table. -/
def Stn.rows2 (s : Stn) : List Row :=
  [.str "CAUSTIC_REC_LIST" s.caustic.list, .quoted "CAUSTIC_REC_NMR" s.caustic.nmr, .str "CAUSTICNAME" s.caustic.name,
   .str "CAUSTIC_PAR_NAME" s.caustic.recName, .recipe "CAUSTIC_PAR" s.caustic.par,
   .str "ACID_REC_LIST" s.acid.list, .quoted "ACID_REC_NMR" s.acid.nmr, .str "ACIDNAME" s.acid.name,
   .str "ACID_PAR_NAME" s.acid.recName]

/-- All rows but the last table of the first line. -/
def allRows (s : Stn) (l : Line) : List Row :=
  l.rows ++ (if l.number = 1 then s.rows else []) ++ l.rows2 ++ (if l.number = 1 then s.rows2 else [])

/-- `cipline_tech_object::save_device` (cip_tech_def.cpp 362-485). -/
def save (s : Stn) (l : Line) : Option Txt :=
  (rowsText (allRows s l)).map fun t =>
    "t.".toList ++ l.name ++ " = t.".toList ++ l.name ++ " or {}\nt.".toList ++ l.name ++ "=\n\t{\n".toList ++ t ++
    (if l.number = 1 then tableText "ACID_PAR".toList s.acid.par ++ ['\n'] else []) ++ "\t}\n".toList

/-! ## The commands -/

/-- `saved_params::save` (param_ex.h 489-505): an index out of range is not written. -/
def saved {α : Type} (l : List α) (idx : Nat) (v : α) : List α := if 0 < idx ∧ idx ≤ l.length then l.set (idx - 1) v else l

/-- `( u_int_4 ) val` and `( int ) val` (undefined outside of the types). -/
def toU : Fv → Option Nat
  | .num q => toUint q
  | _ => none

/-- Truncation towards zero. -/
def truncate (q : Rat) : Int := if q < 0 then -⌊-q⌋ else ⌊q⌋

def toI : Fv → Option Int
  | .num q => if -2147483649 < q ∧ q < 2147483648 then some (truncate q) else none
  | _ => none

/-- `PIDP_Z` and `PIDF_Uk` of `workParameters` (cip_tech_def.h 331, 354), `RV_PIDP_Z` (mcaRec.h 84). -/
def pidFirst : Nat := 61
def pidLast : Nat := 82
def recFirst : Nat := 47

/-- `setRecipeValue` (mcaRec.cpp 160-166) inside of the recipes. -/
def setRec (recs : List (List Fv)) (r k : Nat) (v : Fv) : Option (List (List Fv)) :=
  match recs[r]? with
  | none => none
  | some l => if k < l.length then some (recs.set r (l.set k v)) else none

/-- The command `RT_PAR_F` (cip_tech_def.cpp 495-506). -/
def Line.setRtF (l : Line) (idx : Nat) (v : Fv) : Option Line :=
  let l := if 0 < idx ∧ idx ≤ l.rtF.length then { l with rtF := l.rtF.set (idx - 1) v } else { l with stubF := v }
  if pidFirst ≤ idx ∧ idx ≤ pidLast ∧ l.state ≠ 0 ∧ 0 ≤ l.loaded then
    (setRec l.recs l.loaded.toNat (idx - pidFirst + recFirst) v).map fun r => { l with recs := r }
  else some l

/-- The number of a car is replaced (cip_tech_def.cpp 566-582, 652-688). -/
def Line.setCar (s : Stn) (l : Line) (idx : Nat) (c : Txt) : Line :=
  match idx with
  | 0 | 1 => { l with car1 := c, stats := s.known c }
  | 2 => { l with car2 := c }
  | 3 => { l with car3 := c }
  | 4 => { l with car4 := c }
  | _ => l

/-- `setSwitch` (cip_tech_def.cpp 6764-6785). -/
def Line.setSwitch (l : Line) (idx : Nat) (z : Int) : Line :=
  if l.state ≠ 0 then l
  else match idx with
    | 1 => { l with switch1 := z }
    | 2 => { l with switch2 := z }
    | 3 => { l with switch3 := z }
    | 4 => { l with switch4 := z }
    | _ => l

/-- `setValue( idx - 1, val )` of the recipe which is edited (mcaRec.cpp 179-189), with the index of the server. -/
def setEdited (l : List Fv) (idx : Nat) (v : Fv) : Option (List Fv) :=
  if 0 < idx ∧ idx ≤ l.length then some (l.set (idx - 1) v) else none

/-- `set_cmd` with a number (cip_tech_def.cpp 487-603). `none`: undefined behaviour. -/
def set (fl : Fv → Fv) (s : Stn) (l : Line) (prop : String) (idx : Nat) (v : Fv) : Option (Int × Stn × Line) :=
  if prop = "S_PAR_F" then some (0, s, { l with parF := saved l.parF idx (fl v) })
  else if prop = "RT_PAR_F" then (l.setRtF idx (fl v)).map fun l => (0, s, l)
  else if prop = "PAR_MAIN" then
    let s := if idx = 36 then { s with causticLoaded := -1 } else s
    let s := if idx = 37 then { s with acidLoaded := -1 } else s
    some (0, { s with main := saved s.main idx (fl v) }, l)
  else if prop = "PAR_SELFCLEAN" then
    match s.sc with
    | .null => none
    | .main => some (0, { s with main := saved s.main idx (fl v) }, l)
    | .own => some (0, { s with own := saved s.own idx (fl v) }, l)
  else if prop = "S_PAR_UI" then (toU v).map fun n => (0, s, { l with parU := saved l.parU idx n })
  else if prop = "RT_PAR_UI" then (toU v).map fun n =>
    (0, s, if 0 < idx ∧ idx ≤ l.rtU.length then { l with rtU := l.rtU.set (idx - 1) n } else { l with stubU := n })
  else if prop = "REC_PAR" then (setEdited l.recipe idx (fl v)).map fun r => (0, s, { l with recs := l.recs.set l.cur r })
  else if prop = "CAUSTIC_PAR" then
    (setEdited s.caustic.par idx (fl v)).map fun r => (0, { s with caustic := { s.caustic with par := r } }, l)
  else if prop = "ACID_PAR" then
    (setEdited s.acid.par idx (fl v)).map fun r => (0, { s with acid := { s.acid with par := r } }, l)
  else if prop = "CMD" then
    (toU v).map fun n => (0, s, { l with cmd := if n < 2147483648 then n else (n : Int) - 4294967296 })
  else if prop = "NCAR" then
    if idx ≤ 4 then (toI v).map fun z => (0, s, l.setCar s idx (intText z)) else some (0, s, l)
  else if prop = "SWITCH" then (toI v).map fun z => (0, s, l.setSwitch idx z)
  else some (1, s, l)

/-- The bytes of a text in UTF-8. -/
def bytes (c : Txt) : Nat := (c.map Char.utf8Size).sum

/-- `set_cmd` with a text, for the number of a car (cip_tech_def.cpp 650-691, not on Windows): less than 15 characters are copied
into 45 bytes. `none`: no zero is left behind them, and the text is read beyond its end. -/
def setText (s : Stn) (l : Line) (idx : Nat) (c : Txt) : Option (Int × Stn × Line) :=
  if c.length < 15 then
    if 1 ≤ idx ∧ idx ≤ 4 ∨ idx = 0 then
      if bytes c < 45 then some (0, s, l.setCar s idx c) else none
    else some (0, s, l)
  else some (0, s, l)

/-! ## The creation of the lines -/

/-- What the constructor of a line does with `scparams` and `scenabled` (cip_tech_def.cpp 274-293); `self`: the type of the
line has self-cleaning. -/
def create (p : Ptr × Bool) (self : Bool) : Ptr × Bool :=
  if self then (if p.1 = .null then .own else p.1, true) else (.main, p.2)

/-- All lines of a station are created. -/
def createAll (l : List Bool) : Ptr × Bool := l.foldl create (.null, false)

end Ptusa.CipText
