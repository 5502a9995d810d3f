import Verif.Text.Model
import Verif.Valve.Model
import Verif.Time.Model

/-!
# Recipes of washing lines

Model of `TRecipeManager` (PAC/common/mcaRec.cpp lines 15-645) with the commands of the server that reach it
(PAC/common/cip_tech_def.cpp lines 487-650, 1688-1695, 1968-2003), and of the names of `TMediumRecipeManager`
(mcaRec.cpp lines 647-1032).  Values are 32-bit words (the bytes of a `float`).  `unsigned long` has 32 bits in
`getRecipeValue`, as on the ARM controllers; see `raw64` for the others.  Not modelled: the copy buffer is shared between
the lines, `delete[]` of it in every destructor, `MsaPanel`.
-/
namespace Ptusa.CipRec

open Ptusa.Text (Byte)
open Ptusa.Valve (Tm)

/-- `recipePerLine`, mcaRec.cpp line 17. -/
def perLine : Nat := 25
/-- `blocksPerRecipe * BLOCK_SIZE`, mcaRec.cpp line 19, mcaRec.h line 21. -/
def recLen : Nat := 512
/-- `recipeNameLength`, mcaRec.cpp line 21. -/
def nameLen : Nat := 24
/-- `startRecipeParamsOffset`, mcaRec.cpp line 23. -/
def parOffset : Nat := 32
/-- `recipeMemorySize`, mcaRec.cpp line 34. -/
def memSize : Nat := recLen * perLine

/-- `ReadMem` of bytes (mcaRec.cpp lines 548-563); `none`: outside of the memory. -/
def rd (m : List Byte) (a : Int) (n : Nat) : Option (List Byte) :=
  if 0 ≤ a ∧ a + n ≤ m.length then some ((m.drop a.toNat).take n) else none

/-- `WriteMem` of bytes (mcaRec.cpp lines 565-581). -/
def wr (m : List Byte) (a : Int) (bs : List Byte) : Option (List Byte) :=
  if 0 ≤ a ∧ a + bs.length ≤ m.length then some (m.take a.toNat ++ bs ++ m.drop (a.toNat + bs.length)) else none

/-- The bytes of a word, the lowest first. -/
def bytes4 (w : BitVec 32) : List Byte :=
  [w.extractLsb' 0 8, w.extractLsb' 8 8, w.extractLsb' 16 8, w.extractLsb' 24 8]

/-- The word of four bytes. -/
def word4 : List Byte → BitVec 32
  | [a, b, c, d] => d ++ c ++ b ++ a
  | _ => 0

/-- `startAddr( recNo )` (mcaRec.cpp lines 139-142). -/
def startAddr (r : Int) : Int := r * recLen

/-- `getRecipeValue` (mcaRec.cpp lines 144-156); 0xC47A0000 is -1000. -/
def getValue (m : List Byte) (r k : Int) : Option (BitVec 32) :=
  (rd m (startAddr r + parOffset + 4 * k) 4).map fun bs =>
    if word4 bs = 0xFFFFFFFF then 0xC47A0000 else word4 bs

/-- `getRecipeValue` where `unsigned long` has 64 bits: the upper half of `temp` is not initialised (`hi`). -/
def raw64 (hi : BitVec 32) (m : List Byte) (r k : Int) : Option (BitVec 32) :=
  (rd m (startAddr r + parOffset + 4 * k) 4).map fun bs =>
    if hi ++ word4 bs = (0xFFFFFFFF : BitVec 64) then 0xC47A0000 else word4 bs

/-- `( int ) x` of the float with the bits `w`; `none`: not a number or too large, undefined. -/
def trunc (w : BitVec 32) : Option Int :=
  let e := (w.extractLsb' 23 8).toNat
  let m := (w.extractLsb' 0 23).toNat
  let s : Int := if w.getLsbD 31 then -1 else 1
  if e < 127 then some 0
  else if e < 158 then some (s * ((2 ^ 23 + m) * 2 ^ (e - 127) / 2 ^ 23 : Nat))
  else if e = 158 ∧ m = 0 ∧ w.getLsbD 31 then some (-2147483648)
  else none

/-- `x != 0` of a float. -/
def nonzero (w : BitVec 32) : Bool := w.extractLsb' 0 31 ≠ (0 : BitVec 31)

/-- The values `ResetRecipeToDefaults` sets (mcaRec.cpp lines 245-360). -/
def defaults : List (Nat × BitVec 32) :=
  [(0, 0x0), (1, 0x0), (2, 0x43480000), (3, 0x43480000), (4, 0x3F800000), (5, 0x41700000), (6, 0x0), (7, 0x41200000),
   (8, 0x41F00000), (9, 0x41F00000), (10, 0x41F00000), (11, 0x40A00000), (12, 0x42A00000), (13, 0x428C0000),
   (14, 0x42B40000), (15, 0x42700000), (16, 0x43480000), (17, 0x43480000), (18, 0x43480000), (19, 0x43480000),
   (20, 0x42200000), (21, 0x41700000), (22, 0x41F00000), (23, 0x43960000), (24, 0x44160000), (25, 0x44160000),
   (26, 0x43FA0000), (27, 0x43FA0000), (28, 0x44160000), (29, 0x44160000), (30, 0x42F00000), (31, 0x0), (32, 0x0),
   (33, 0x0), (34, 0x0), (35, 0x0), (36, 0x40A00000), (37, 0x44160000), (38, 0x41F00000), (39, 0x43FA0000),
   (40, 0x41F00000), (41, 0x41000000), (42, 0x41700000), (43, 0x40000000), (44, 0x41A00000), (45, 0x41A00000),
   (46, 0x41A00000), (47, 0x42BE0000), (48, 0x40000000), (49, 0x41F00000), (50, 0x3E4CCCCD), (51, 0x43FA0000),
   (52, 0x43020000), (53, 0x0), (54, 0x41F00000), (55, 0x0), (56, 0x41F00000), (57, 0x0), (58, 0x41700000),
   (59, 0x3F000000), (60, 0x41200000), (61, 0x3DCCCCCD), (62, 0x447A0000), (63, 0x42200000), (64, 0x0),
   (65, 0x40000000), (66, 0x0), (67, 0x41700000), (68, 0x0), (69, 0x43960000), (70, 0x0), (71, 0x0), (72, 0x0),
   (73, 0x0), (74, 0x0), (75, 0x0), (76, 0x0), (77, 0x0), (78, 0x0), (79, 0x0), (80, 0x0), (81, 0x0), (83, 0x0),
   (84, 0x0), (85, 0x0), (86, 0x0), (87, 0x0), (88, 0x0), (89, 0x0), (90, 0x0), (91, 0x0), (92, 0x0), (93, 0x0),
   (94, 0x0), (95, 0x0), (96, 0x0), (97, 0x0), (98, 0x0), (99, 0x0), (100, 0x0), (101, 0x0)] ++
  (List.range 18).map fun i => (102 + i, 0x0)

/-- `TRecipeManager`.  `name` is `currentRecipeName` (`none`: no zero in its 72 bytes), `copy` the copy buffer, `file` the
contents of the file, `list` the entries of `recipeList`. -/
structure St where
  mem : List Byte
  cur : Nat := 0
  name : Option (List Byte)
  changed : Bool := false
  tCheck : Tm
  tEval : Tm
  copy : Option (List Byte) := none
  file : Option (List Byte)
  list : List (Nat × List Byte) := []
  deriving DecidableEq, Repr

/-- `setRecipeValue` (mcaRec.cpp lines 158-164). -/
def St.setRec (s : St) (now : Tm) (r k : Int) (v : BitVec 32) : Option St :=
  (wr s.mem (startAddr r + parOffset + 4 * k) (bytes4 v)).map fun m =>
    { s with mem := m, changed := true, tCheck := now }

/-- `ReadMem` of a text (mcaRec.cpp lines 551-557): without a zero in it the conversion reads what was not written. -/
def readName (m : List Byte) (r : Int) : Option (List Byte) :=
  (rd m (startAddr r) nameLen).bind fun bs =>
    if (0 : Byte) ∈ bs then some (Text.toUtf8 (bs.takeWhile (· ≠ 0))) else none

/-- `LoadRecipeName` (mcaRec.cpp lines 382-385). -/
def St.loadName (s : St) : Option St := (readName s.mem s.cur).map fun t => { s with name := some t }

/-- `SaveRecipeName` (mcaRec.cpp lines 189-195) with `WriteMem` of a text: `junk` are the 25 bytes of `tmp` before the
conversion.  The closing zero is written only when everything was converted. -/
def St.saveName (s : St) (junk : List Byte) : Option St :=
  s.name.bind fun t => (Text.conv t.length t).bind fun r =>
    let w := r.2 ++ if r.1 then [0] else []
    if nameLen + 1 < w.length then none
    else (wr s.mem (startAddr s.cur) ((w ++ junk.drop w.length).take nameLen)).map fun m => { s with mem := m }

/-- One entry of `FormRecipeList` (mcaRec.cpp lines 373-378). -/
def entry (m : List Byte) (i : Nat) : Option (List (Nat × List Byte)) :=
  (getValue m i 0).bind fun v => if nonzero v then (readName m i).map fun t => [(i + 1, t)] else some []

/-- `FormRecipeList` (mcaRec.cpp lines 368-380). -/
def entries (m : List Byte) : List Nat → Option (List (Nat × List Byte))
  | [] => some []
  | i :: is => (entry m i).bind fun e => (entries m is).map (e ++ ·)

def St.formList (s : St) : Option St := (entries s.mem (List.range perLine)).map fun l => { s with list := l }

/-- `ToRecipe` (mcaRec.cpp lines 387-401); `NextRecipe` and `PrevRecipe` (62-92) do the same with the next and the
previous number. -/
def St.goto (s : St) (junk : List Byte) (r : Int) : Option St :=
  if 0 ≤ r ∧ r < perLine then (s.saveName junk).bind fun s => { s with cur := r.toNat }.loadName else some s

/-- `setCurrentRecipe` (mcaRec.cpp lines 226-239). -/
def St.setCurrent (s : St) (junk : List Byte) (r : Int) : Option St :=
  if 0 ≤ r ∧ r < perLine then (s.saveName junk).map fun s => { s with cur := r.toNat } else some s

/-- `ResetRecipeToDefaults` of the current recipe (mcaRec.cpp lines 241-366). -/
def St.reset (s : St) (now : Tm) : List (Nat × BitVec 32) → Option St
  | [] => some s
  | (k, v) :: kvs => (s.setRec now s.cur k v).bind fun s => s.reset now kvs

/-- `CopyRecipe` (mcaRec.cpp lines 519-527). -/
def St.copyRecipe (s : St) : Option St := (rd s.mem (startAddr s.cur) recLen).map fun bs => { s with copy := some bs }

/-- `PasteRecipe` (mcaRec.cpp lines 529-536). -/
def St.paste (s : St) : Option St :=
  match s.copy with
  | none => some s
  | some bs => (wr s.mem (startAddr s.cur) bs).bind fun m => { s with mem := m }.loadName

/-- `NullifyRecipe` (mcaRec.cpp lines 538-546). -/
def St.nullify (s : St) : Option St :=
  (wr s.mem (startAddr s.cur) (List.replicate recLen 0)).bind fun m => { s with mem := m }.loadName

/-- `SaveToFile` (mcaRec.cpp lines 583-615): written in place from the beginning; `w` bytes reach the file (none when it
could not be opened, fewer than all when the disk is full or the controller stops).  Nothing tells how many. -/
def St.save (s : St) (w : Nat) : St :=
  { s with file := some (s.mem.take w ++ (s.file.getD []).drop (s.mem.take w).length) }

/-- `LoadFromFile` (mcaRec.cpp lines 617-645): the file over a memory of zeros. -/
def loadFile (f : Option (List Byte)) : List Byte :=
  let b := (f.getD []).take memSize
  b ++ List.replicate (memSize - b.length) 0

/-- The command in the value 1 (`RV_TO_DEFAULTS`) of the current recipe (mcaRec.cpp lines 112-131).  The condition
`getValue(RV_TO_DEFAULTS != 0)` reads the value number 1, which happens to be the right one. -/
def St.command (s : St) (now : Tm) : Option St :=
  (getValue s.mem s.cur 1).bind fun v =>
    if nonzero v then
      (trunc v).bind fun c =>
        (if c = 1 then s.reset now defaults
         else if c = 2 then s.copyRecipe
         else if c = 3 then s.paste
         else if c = 4 then s.nullify
         else some s).bind fun s => s.setRec now s.cur 1 0
    else some s

/-- `EvalRecipe` (mcaRec.cpp lines 94-132). -/
def St.eval (s : St) (now : Tm) (junk : List Byte) (w : Nat) : Option St :=
  (if 10000#64 < Time.deltaMs now s.tEval then ({ s with tEval := now }.saveName junk).bind (·.formList)
    else some s).bind fun s =>
  let s := if 30000#64 < Time.deltaMs now s.tCheck then
      { (if s.changed then { s with changed := false }.save w else s) with tCheck := now }
    else s
  s.command now

/-- The constructor (mcaRec.cpp lines 27-48). -/
def start (file : Option (List Byte)) (now : Tm) : Option St :=
  ({ mem := loadFile file, name := none, tCheck := now, tEval := now, file := file } : St).loadName.bind (·.formList)

/-- What happens to the recipes of a line. -/
inductive Op where
  /-- the command `REC_PAR` with the index of the server (cip_tech_def.cpp lines 540-544) -/
  | par (idx v : BitVec 32)
  /-- a value of a recipe that is in use (cip_tech_def.cpp lines 495-506) -/
  | value (r k : Nat) (v : BitVec 32)
  /-- the command `CUR_REC` with a name (cip_tech_def.cpp lines 607-618) -/
  | name (t : List Byte)
  | goto (r : Int)
  | next
  | prev
  /-- `MCMD_RELOAD_RECIPES` (cip_tech_def.cpp lines 2000-2003) -/
  | reload
  | eval (w : Nat)
  /-- the controller is switched off and on without the destructor -/
  | restart
  /-- the program ends (the destructor, mcaRec.cpp lines 50-64) and starts again -/
  | shutdown (w : Nat)
  deriving DecidableEq, Repr

/-- An event: the clock, the bytes that stood in the memory of temporary buffers, and what happens. -/
structure Ev where
  now : Tm
  junk : List Byte
  op : Op
  deriving DecidableEq, Repr

def St.step (s : St) (e : Ev) : Option St :=
  match e.op with
  | .par idx v => s.setRec e.now s.cur (idx - 1).toInt v
  | .value r k v => s.setRec e.now r k v
  | .name t =>
    match Text.setName nameLen (3 * nameLen) t with
    | none => some s
    | some n => some { s with name := n }
  | .goto r => s.goto e.junk r
  | .next => s.goto e.junk (s.cur + 1)
  | .prev => s.goto e.junk (s.cur - 1 : Int)
  | .reload => { s with mem := loadFile s.file }.loadName
  | .eval w => s.eval e.now e.junk w
  | .restart => start s.file e.now
  | .shutdown w => (s.saveName e.junk).bind fun s => start (s.save w).file e.now

def St.run (s : St) : List Ev → Option St
  | [] => some s
  | e :: es => (s.step e).bind (·.run es)

/-! ### Names of the recipes of washing media -/

/-- `TMediumRecipeManager::recipeNameLength` (mcaRec.cpp line 655), also the size of `currentRecipeName` (line 672). -/
def mediumName : Nat := 30

/-- `set_cmd` of `CAUSTIC_PAR_NAME` and `ACID_PAR_NAME` (cip_tech_def.cpp lines 620-648, not on Windows): `strncpy` always
writes 90 bytes; `none`: written behind the field. -/
def setMedium (field : List Byte) (val : List Byte) : Option (List Byte) :=
  if Text.strlen val < mediumName then
    (if mediumName < 3 * mediumName then none else some ((val ++ List.replicate mediumName 0).take mediumName))
  else some field

/-- `TMediumRecipeManager::LoadRecipeName` (mcaRec.cpp lines 894-897): the 30 bytes of the memory converted from
Windows-1251 into the field of 30 bytes; `none`: written behind the field, or no zero in the memory. -/
def loadMedium (stored field : List Byte) : Option (List Byte) :=
  if (0 : Byte) ∈ stored then
    let t := Text.toUtf8 (stored.takeWhile (· ≠ 0)) ++ [0]
    if mediumName < t.length then none else some (t ++ field.drop t.length)
  else none

/-- `TMediumRecipeManager::SaveRecipeName` (mcaRec.cpp lines 804-807): the field as it is. -/
def saveMedium (field : List Byte) : List Byte := field

/-- Going to another recipe and back (`NextRecipe`, `PrevRecipe`, mcaRec.cpp lines 704-734), seen from the stored name of
the first one; the name of the other recipe is empty. -/
def awayAndBack (field : List Byte) : Option (List Byte × List Byte) :=
  let stored := saveMedium field
  (loadMedium stored (0 :: List.replicate (mediumName - 1) 0)).map fun f => (stored, f)

end Ptusa.CipRec
