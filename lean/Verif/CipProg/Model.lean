import Verif.Valve.Model

/-!
# The choice of washing programs

Model of the list of programs of a washing line (`resetProgramList`, `addProgramToList`, `formProgramList`,
PAC/common/cip_tech_def.cpp lines 1131-1240), of loading a program (`loadProgramFromList`, 1242-1384), of the part of
`EvalRecipes` that loads a recipe and a program (1696-1718), of the choice of a program at the panel (modbus_serv.cpp lines
924-930) and of what resets them (cip_tech_def.cpp 165-178, 271-272, 1808-1817, 2983-3122, 3230-3250).  The parameters
`P_PROGRAM_MASK` and `P_SELECT_PRG` are floating point numbers, `P_PROGRAM` only gets the numbers of programs.
Simplifications: the texts `programList` and `prgArray` are lists of numbers and names; a recipe that is chosen exists (see
C87 for other numbers) and is given by its mask; the flag that makes the panel read the list again is left out, and so are
writes of the server to `P_PROGRAM` itself (see C89).
-/
namespace Ptusa.CipProg
open Valve (toUnsigned)

/-- A row of the list: the number of a program (`selectablePrograms`, cip_tech_def.h lines 130-154) and its name. -/
abbrev Row := Nat × String

/-- `panelMaxPrograms` (cip_tech_def.h line 736). -/
def panelMax : Nat := 16

/-- Names in `loadProgramFromList` and `resetProgramName` (cip_tech_def.cpp line 1120). -/
def noProgram : String := "Не выбран"

/-- A line: whether a wash runs (`state` is not 0), `P_PROGRAM`, `loadedProgram`, `disable_final_rinsing`, whether
`clean_water_rinsing_return` is `KANAL` (otherwise `TANK_W`), `currentProgramName`, `programList`, the rows of the panel
(`prgNumber`, `prgArray`), their count `prgListLen`, `P_PROGRAM_MASK`, `P_SELECT_PRG`, and the mask of the recipe that was
chosen by `P_SELECT_REC`, if any. -/
structure Ln where
  busy : Bool := false
  prog : Nat := 0
  loaded : Int := -1
  noRinse : Bool := false
  canal : Bool := false
  name : String := noProgram
  list : List Row := []
  rows : List Row := List.replicate panelMax (0, "")
  len : Nat := 0
  mask : Fl := .num 0
  sel : Fl := .num 0
  recipe : Option Fl := none

/-- `addProgramToList` (cip_tech_def.cpp lines 1150-1161). -/
def Ln.add (l : Ln) (r : Row) : Ln :=
  let l := { l with list := l.list ++ [r] }
  if l.len < panelMax then { l with rows := l.rows.set l.len r, len := l.len + 1 } else l

/-- The list made anew from `rs`. -/
def Ln.relist (l : Ln) (rs : List Row) : Ln := rs.foldl Ln.add { l with len := 0, list := [] }

/-- The rows of `resetProgramList` (cip_tech_def.cpp lines 1131-1148); `sc`: the station can clean itself and no line does
so. -/
def prepRows (sc : Bool) (mask : Nat) : List Row :=
  (if 256 &&& mask = 256 then [(256, "Наведение кислоты")] else []) ++
  (if 512 &&& mask = 512 then [(512, "Наведение щелочи")] else []) ++
  (if sc ∧ 2048 &&& mask = 2048 then [(2048, "Очистка танков")] else [])

/-- `resetProgramList` with its default mask. -/
def Ln.resetList (l : Ln) (sc : Bool) : Ln := l.relist (prepRows sc 0xB00)

/-- The table of `formProgramList` (cip_tech_def.cpp lines 1172-1239), in its order: bit of the mask, number, name. -/
def table : List (Nat × Row) :=
  [(0, 5, "Дезинфекция"), (1, 128, "Ополаск"), (2, 133, "Опол+Дез"), (3, 144, "Кислота"), (4, 149, "Кисл+Дез"),
   (5, 160, "Щелочь"), (6, 165, "Щел+Дез"), (7, 181, "Щел+Кисл+Дез"), (8, 176, "Щел+Кисл"),
   (9, 9000, "Опол.ч.водой в канал."), (12, 9001, "Опол.ч.водой в танк"), (13, 163, "Щел+ДезСР"), (14, 147, "Кисл+ДезСР"),
   (15, 179, "Щел+Кисл+ДезСР"), (10, 3, "ДезСР"), (11, 1024, "Управляемая"), (16, 9010, "Без ополаск.(опция)")]

/-- `default_programlist` (cip_tech_def.cpp line 139). -/
def defaultMask : Nat := 0x13FB

/-- The rows of `formProgramList` (cip_tech_def.cpp lines 1163-1240); `PRG_D` is bit 2. -/
def washRows (mask prog : Nat) : List Row :=
  let mask := if mask = 0 then defaultMask else mask
  (table.filter fun e => mask.testBit e.1 && (e.1 != 16 || prog.testBit 2)).map Prod.snd

/-- `formProgramList`. -/
def Ln.form (l : Ln) (mask : Nat) : Ln := l.relist (washRows mask l.prog)

/-- A program and its name (cip_tech_def.cpp lines 1245-1345). -/
def names : Nat → Option String
  | 1 => some "Опол.чист.водой"
  | 3 => some "ДезРаствор"
  | 5 => some "Дезинфекция"
  | 128 => some "Ополаскивание"
  | 133 => some "Опол+Дезинф"
  | 144 => some "Кислота"
  | 149 => some "Кислота+Дез"
  | 160 => some "Щелочь"
  | 165 => some "Щел+Дезинф"
  | 176 => some "Щел+Кислота"
  | 181 => some "Щел+Кисл+Дез"
  | 179 => some "Щел+Кисл+ДезСР"
  | 163 => some "Щел+ДезСР"
  | 147 => some "Кисл+ДезСР"
  | 1024 => some "Управляемая мойка"
  | _ => none

/-- The programs that prepare solutions or clean the tanks; they leave `disable_final_rinsing` (cip_tech_def.cpp lines
1317-1328). -/
def prepNames : Nat → Option String
  | 256 => some "Нав. кислоты"
  | 512 => some "Нав. щелочи"
  | 2048 => some "Очистка танков"
  | _ => none

/-- Programs without the final rinse (cip_tech_def.cpp lines 1346-1375). -/
def noRinseNames : Nat → Option String
  | 5 => some "ДезБО"
  | 165 => some "Щел+ДезБО"
  | 149 => some "Кисл+ДезБО"
  | 181 => some "Щел+Кисл+ДезБО"
  | _ => none

/-- The cases that give up the program (cip_tech_def.cpp lines 1369-1374, 1377-1381). -/
def Ln.unload (l : Ln) : Ln := { l with name := noProgram, loaded := -1, noRinse := false, prog := 0 }

/-- The switch of `loadProgramFromList` (cip_tech_def.cpp lines 1244-1382). -/
def Ln.pick (l : Ln) (n : Int) : Ln :=
  let l := { l with loaded := n }
  if n = 9000 then { l with name := "Опол.чист.водой в канал.", canal := true, prog := 1, noRinse := false }
  else if n = 9001 then { l with name := "Опол.чист.водой в танк", canal := false, prog := 1, noRinse := false }
  else if n = 9010 then
    match noRinseNames l.prog with
    | some s => { l with name := s, noRinse := true, loaded := l.prog }
    | none => l.unload
  else if n < 0 then l.unload
  else match names n.toNat, prepNames n.toNat with
    | some s, _ => { l with name := s, prog := n.toNat, noRinse := false }
    | none, some s => { l with name := s, prog := n.toNat }
    | none, none => l.unload

/-- `loadProgramFromList` (cip_tech_def.cpp lines 1242-1384): `none` when the mask does not fit an `unsigned long`. -/
def Ln.load (l : Ln) (n : Int) : Option Ln := (toUnsigned 64 l.mask).map fun m => (l.pick n).form m

/-- Conversion of a `float` to `int`; `none` when it does not fit. -/
def toInt : Fl → Option Int
  | .nan => none
  | .num q =>
    let t := Int.tdiv q.num q.den
    if -2 ^ 31 ≤ t ∧ t < 2 ^ 31 then some t else none

/-- Loading the recipe that was chosen (cip_tech_def.cpp lines 1696-1712). -/
def Ln.evalRecipe (l : Ln) : Option Ln :=
  match l.recipe with
  | none => some l
  | some m => (toUnsigned 32 m).map fun k => { l with mask := m, recipe := none }.form k

/-- Loading the program that was chosen (cip_tech_def.cpp lines 1714-1718). -/
def Ln.evalProgram (l : Ln) : Option Ln :=
  if (Fl.num 0).lt l.sel then
    (toInt l.sel).bind fun n => (l.load n).map fun l => { l with sel := .num 0 }
  else some l

/-- The line after the start (cip_tech_def.cpp lines 165-178, 271-278). -/
def initial (sc : Bool) : Ln := ({} : Ln).resetList sc

/-- What happens: a recipe with the given mask is chosen, the server chooses a program (`set_cmd` "RT_PAR_F" of
`P_SELECT_PRG`), the panel chooses row `k` (modbus_serv.cpp lines 924-930), a cycle, a wash starts, `MCMD_RESET` while no
wash runs (cip_tech_def.cpp lines 1808-1817), the end of a wash (`_ResetLinesDevicesBeforeReset`, `ResetWP`), the start or
end of self-cleaning in another line (lines 1874-1882, 3123-3131). -/
inductive Ev where
  | recipe (mask : Fl)
  | server (v : Fl)
  | panel (k : Int)
  | cycle
  | start
  | reset (sc : Bool)
  | over (sc : Bool)
  | other (sc : Bool)

/-- One event; `none` when something undefined happens. -/
def Ln.step (l : Ln) : Ev → Option Ln
  | .recipe m => some { l with recipe := some m }
  | .server v => some { l with sel := v }
  | .panel k =>
    if l.busy then some l
    else if k < 0 then none
    else (l.rows[k.toNat]?).map fun r => { l with sel := .num r.1 }
  | .cycle => l.evalRecipe.bind Ln.evalProgram
  | .start => some { l with busy := true }
  | .reset sc => some (if l.busy then l else { l.resetList sc with name := noProgram, loaded := -1, prog := 0 })
  | .over sc =>
    some { l.resetList sc with
      busy := false, name := noProgram, loaded := -1, prog := 0, canal := false, noRinse := false,
      mask := .num 0, sel := .num (-1), recipe := none }
  | .other sc => some (l.resetList sc)

/-- A history. -/
def run (l : Ln) : List Ev → Option Ln
  | [] => some l
  | e :: es => (l.step e).bind fun l => run l es

end Ptusa.CipProg
