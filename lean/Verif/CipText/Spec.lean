import Verif.CipText.Model
import Verif.ObjText.Spec

/-!
# What the server should read of a washing line

Independent of the functions which write the text and of those which perform the commands.
-/
namespace Ptusa.CipText
open SaveDev LuaText ObjText

/-- A field with a text. -/
def txt (key : String) (s : Txt) : Option Txt × Lv := (some key.toList, .str s)

/-- A field with a list. -/
def lst (key : String) (l : List Lv) : Option Txt × Lv := (some key.toList, .table (l.map fun v => (none, v)))

/-- What a value of a recipe is read as: hundredths. -/
def seenRec : Fv → Lv
  | .num q => .num (hundredths q)
  | .inf _ => .glob "inf".toList
  | .nan _ => .glob "nan".toList

/-- A value of a recipe which can be read: not minus infinity and not a negative not-a-number. -/
def PrintableRec : Fv → Prop
  | .num _ => True
  | .inf neg => neg = false
  | .nan neg => neg = false

/-- A number with at least two digits. -/
def twoDigits (n : Nat) : Txt := if n < 100 then padded 2 n else natText n

/-- Hours, minutes and seconds. -/
def clock (sec : Nat) : Txt :=
  twoDigits (sec / 3600) ++ [':'] ++ twoDigits (sec % 3600 / 60) ++ [':'] ++ twoDigits (sec % 60)

/-- The integers as the server sees them. -/
def whole (l : List Nat) : List Lv := l.map fun n : Nat => Lv.num n

/-- The decimal text of an integer, as the server reads it between apostrophes. -/
def decimal (z : Int) : Txt := if 0 ≤ z then natText z.toNat else '-' :: natText (-z).toNat

/-- The fields of the table of a line; those of the station are in the table of line 1. -/
def want (s : Stn) (l : Line) : List (Option Txt × Lv) :=
  [one "CMD" l.cmd, one "STATE" l.state, one "OPER" l.step, txt "LOADED_REC" l.loadedName, txt "CUR_REC" l.editName,
   one "LASTRECNMR" l.lastNmr, txt "LASTRECNAME" l.lastName, txt "CUR_PRG" l.program, txt "PRG_LIST" l.programs,
   txt "REC_LIST" l.recipes, txt "NCAR" l.car1, txt "NCAR1" l.car1, txt "NCAR2" l.car2, txt "NCAR3" l.car3,
   txt "NCAR4" l.car4, one "SWITCH1" l.switch1, one "SWITCH2" l.switch2, one "SWITCH3" l.switch3, one "SWITCH4" l.switch4,
   txt "IDLE_TIME" (clock (l.idle / 1000)), lst "S_PAR_F" (l.parF.map seen), lst "S_PAR_UI" (whole l.parU),
   lst "RT_PAR_F" (l.rtF.map seen), lst "RT_PAR_UI" (whole l.rtU)] ++
  (if l.number = 1 then lst "PAR_MAIN" (s.main.map seen) ::
    (if s.scEnabled = true ∧ s.sc = .own then [lst "PAR_SELFCLEAN" (s.own.map seen)]
     else if s.scEnabled = true ∧ s.sc = .main then [lst "PAR_MAIN" (s.main.map seen)] else []) else []) ++
  [lst "REC_PAR" ((l.recs.getD l.cur []).map seenRec), txt "OBJSTATS_LASTWASH" l.stats.lastWash,
   txt "OBJSTATS_LASTPROGRAM" l.stats.lastProgram, one "OBJSTATS_CAUSTICCOUNT" l.stats.caustic,
   txt "OBJSTATS_LASTACIDWASH" l.stats.lastAcid] ++
  (if l.number = 1 then
    [txt "CAUSTIC_REC_LIST" s.caustic.list, txt "CAUSTIC_REC_NMR" (decimal s.caustic.nmr), txt "CAUSTICNAME" s.caustic.name,
     txt "CAUSTIC_PAR_NAME" s.caustic.recName, lst "CAUSTIC_PAR" (s.caustic.par.map seenRec),
     txt "ACID_REC_LIST" s.acid.list, txt "ACID_REC_NMR" (decimal s.acid.nmr), txt "ACIDNAME" s.acid.name,
     txt "ACID_PAR_NAME" s.acid.recName, lst "ACID_PAR" (s.acid.par.map seenRec)] else [])

/-- The texts of a medium have no apostrophe, line feed or backslash, and its values can be read. -/
structure Medium.Readable (m : Medium) : Prop where
  list : Clean m.list
  name : Clean m.name
  recName : Clean m.recName
  par : ∀ x ∈ m.par, PrintableRec x

/-- The same for a station. -/
structure Stn.Readable (s : Stn) : Prop where
  main : ∀ x ∈ s.main, Printable x
  own : ∀ x ∈ s.own, Printable x
  caustic : s.caustic.Readable
  acid : s.acid.Readable

/-- The same for a line. -/
structure Line.Readable (l : Line) : Prop where
  name : luaName l.name = true
  texts : ∀ c ∈ [l.loadedName, l.editName, l.lastName, l.program, l.programs, l.recipes, l.car1, l.car2, l.car3, l.car4,
    l.stats.lastWash, l.stats.lastProgram, l.stats.lastAcid], Clean c
  parF : ∀ x ∈ l.parF, Printable x
  rtF : ∀ x ∈ l.rtF, Printable x
  recs : ∀ r ∈ l.recs, ∀ x ∈ r, PrintableRec x

/-- The list which the server finds under a key. -/
def listAt (s : Stn) (l : Line) (key : String) : Option (List Lv) :=
  match field (want s l) key with
  | some (.table fs) => some (items fs)
  | _ => none

/-- Nothing that the server reads changes, except under the keys given. -/
def OnlyAt (keys : List String) (s : Stn) (l : Line) (s' : Stn) (l' : Line) : Prop :=
  ∀ k : String, k ∉ keys → field (want s' l') k = field (want s l) k

/-- The value with number `i` (from 1) of the list under the key becomes `x`; nothing else changes. -/
def Put (key : String) (i : Nat) (x : Lv) (s : Stn) (l : Line) (s' : Stn) (l' : Line) : Prop :=
  OnlyAt [key] s l s' l' ∧ ∃ a, listAt s l key = some a ∧ 0 < i ∧ i ≤ a.length ∧ listAt s' l' key = some (a.set (i - 1) x)

/-- The key of the number of car `k`. -/
def carKey (k : Nat) : String := if k = 2 then "NCAR2" else if k = 3 then "NCAR3" else if k = 4 then "NCAR4" else "NCAR1"

/-- The key of switch `k`. -/
def switchKey (k : Nat) : String :=
  if k = 1 then "SWITCH1" else if k = 2 then "SWITCH2" else if k = 3 then "SWITCH3" else "SWITCH4"

/-- The names of the commands with numbers. -/
def commands : List String :=
  ["S_PAR_F", "RT_PAR_F", "PAR_MAIN", "PAR_SELFCLEAN", "S_PAR_UI", "RT_PAR_UI", "REC_PAR", "CAUSTIC_PAR", "ACID_PAR", "CMD", "NCAR",
   "SWITCH"]

end Ptusa.CipText
