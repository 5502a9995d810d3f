import Verif.Modbus.Model
import Verif.CipRec.Model

/-!
# The panel of a washing station

Model of the built-in objects of a washing station in the Modbus server (`isMsa` branches of `ModbusServ::ModbusService`,
PAC/common/modbus_serv.cpp lines 163-243, 312-580, 700-762, 816-1008, `get_device` 1318-1495, the update flags 1224-1258).
Simplifications: lines are numbered from one without gaps (`Mdls[ 0 ]` … `Mdls[ MdlsCNT - 1 ]`), every device of a line is
there (`initline` takes the placeholder for a missing one).  The line taken for the groups `C_OTHER`, `C_MSA_CONTROL` and
`C_MSA_RECIPES` is in `Modbus.lineIndex`, the choice of a program in `CipProg`, texts in `Text`.
-/
namespace Ptusa.Panel

open Tcp (Byte Buf put get)
open Modbus (packFloat unpackFloat forceBit pair coilBytes)
open Ptusa.Valve (Tm)

/-! ### Parameters of lines -/

/-- `run_time_params_float` (param_ex.h lines 166-290): the values and the element given for a wrong index, which can be
written too. -/
structure Par where
  vals : List (BitVec 32)
  stub : BitVec 32 := 0
  deriving DecidableEq, Repr

/-- `operator[]` (param_ex.h lines 191-200), read. -/
def Par.get (p : Par) (i : Nat) : BitVec 32 := if i ≤ p.vals.length ∧ 0 < i then p.vals.getD (i - 1) 0 else p.stub

/-- `operator[]` (param_ex.h lines 191-200), assigned. -/
def Par.set (p : Par) (i : Nat) (v : BitVec 32) : Par :=
  if i ≤ p.vals.length ∧ 0 < i then { p with vals := p.vals.set (i - 1) v } else { p with stub := v }

/-- `objnumber - 1` of an `unsigned int`. -/
def pred32 (n : Nat) : Nat := (n + (2 ^ 32 - 1)) % 2 ^ 32

/-- `x != 0` of a float. -/
def nonzero (v : BitVec 32) : Bool := v.extractLsb' 0 31 ≠ (0 : BitVec 31)

/-- One coil of a parameter (modbus_serv.cpp lines 229-242). -/
def coilOne (ls : List Par) (k addr : Nat) (b : Buf) (i : Nat) : Buf :=
  match ls[k]? with
  | some p => forceBit b 3 i (nonzero (p.get (pred32 (addr + i))))
  | none => b

/-- Coils of parameters (modbus_serv.cpp lines 168-242). -/
def readCoils (ls : List Par) (k addr n : Nat) (b : Buf) : Buf := (List.range n).foldl (coilOne ls k addr) b

/-- One float of the registers (modbus_serv.cpp lines 564-578), for `i = 2 * j`. -/
def readOne (ls : List Par) (k addr : Nat) (b : Buf) (j : Nat) : Buf :=
  match ls[k]? with
  | some p => put b (3 + 2 * (2 * j)) (packFloat (p.get ((addr + 2 * j) / 2)))
  | none => b

/-- Registers of parameters (modbus_serv.cpp lines 318-580).  The loop advances by two, `i = 2 * j`. -/
def readRegs (ls : List Par) (k addr n : Nat) (b : Buf) : Buf :=
  (List.range ((n + 1) / 2)).foldl (readOne ls k addr) b

/-- A coil of a parameter is written (modbus_serv.cpp lines 742-757). -/
def writeCoil (ls : List Par) (k obj : Nat) (on : Bool) : List Par :=
  match ls[k]? with
  | some p => if obj ≤ p.vals.length then ls.set k (p.set (pred32 obj) (if on then 0x3F800000 else 0)) else ls
  | none => ls

/-- One float is written (modbus_serv.cpp lines 985-1002), for `i = 2 * j`. -/
def writeOne (k addr : Nat) (b : Buf) (ls : List Par) (j : Nat) : List Par :=
  match ls[k]? with
  | some p =>
    if (addr + 2 * j) / 2 ≤ p.vals.length then
      ls.set k (p.set ((addr + 2 * j) / 2) (unpackFloat (get b (7 + 2 * (2 * j)) 4)))
    else ls
  | none => ls

/-- Registers of parameters are written (modbus_serv.cpp lines 818-1003).  The loop advances by two, `i = 2 * j`. -/
def writeRegs (ls : List Par) (k addr n : Nat) (b : Buf) : List Par :=
  (List.range ((n + 1) / 2)).foldl (writeOne k addr b) ls

/-- What is left by a request: the parameters, the memory and the length of the answer. -/
structure Out where
  lines : List Par
  buf : Buf
  len : Nat

/-- `ModbusService` for the groups `C_MSA_LINE1PARAMS` (103) to `C_MSA_LINE9PARAMS` (111) of a washing station
(modbus_serv.cpp lines 145-1054).  `none`: another group. -/
def serve (ls : List Par) (m : Buf) : Option Out :=
  let group := (m 0).toNat
  let addr := pair m 2
  let n := pair m 4
  if group < 103 ∨ 111 < group then none else
  let k := group - 103
  match (m 1).toNat with
  | 0x01 => some ⟨ls, readCoils ls k addr n (put m 2 [BitVec.ofNat 8 (coilBytes n)]), 3 + coilBytes n⟩
  | 0x03 => some ⟨ls, readRegs ls k addr n (put m 2 [BitVec.ofNat 8 (2 * n)]), 3 + n * 2⟩
  | 0x05 => some ⟨writeCoil ls k addr (0 < (m 4).toNat), m, 6⟩
  | 0x10 => some ⟨writeRegs ls k addr n m, m, 6⟩
  | _ => some ⟨ls, m, 0⟩

/-! ### Devices -/

/-- The devices of `cipline_tech_object` (cip_tech_def.h lines 797-823). -/
inductive Part where
  | NS | NK | NP | LSH | LSL | LKH | LKL | LWH | LWL | LH | LM | LL | FL | ao | cnt | TP | TR | Q | LTS | LTK | LTW
  deriving DecidableEq, Repr

/-- What `get_device` gives: the placeholder, `LINE<line>V<n>`, `LINE<line>M<n>`, or a device of a line (numbered from one). -/
inductive Dev where
  | stub
  | valve (line n : Nat)
  | pump (line n : Nat)
  | part (line : Nat) (p : Part)
  deriving DecidableEq, Repr

/-- `get_device` (modbus_serv.cpp lines 1318-1495) with `lines` lines; `old l`: `is_old_definition` of line `l`. -/
def getDevice (lines : Nat) (old : Nat → Bool) (group number : Nat) : Dev :=
  let line := number / 100
  let ok (l : Nat) : Bool := 0 < l ∧ l ≤ lines
  match group with
  | 0 => -- C_V
    if ok line ∧ number % 100 < 14 then (if old line then .valve line number else .valve line (number % 100)) else .stub
  | 1 | 2 => -- C_N, C_M
    match number % 100 with
    | 1 => .part 1 .NS
    | 2 => .part 1 .NK
    | 3 => if ok line then .part line .NP else .stub
    | _ => .stub
  | 3 => -- C_LS
    match number with
    | 4 => .part 1 .LSH
    | 5 => .part 1 .LSL
    | 6 => .part 1 .LKH
    | 7 => .part 1 .LKL
    | 8 => .part 1 .LWH
    | 9 => .part 1 .LWL
    | _ =>
      if ok line then
        match number % 100 with
        | 1 => .part line .LH
        | 2 => .part line .LM
        | 3 => .part line .LL
        | _ => .stub
      else .stub
  | 6 => if ok line then .part line .FL else .stub -- C_FS
  | 8 => -- C_AO
    if ok (line / 2) then
      match number % 100 with
      | 2 => .part (line / 2) .NP
      | 28 => .part (line / 2) .ao
      | _ => .stub
    else .stub
  | 5 | 7 => if ok (line / 2) then .part (line / 2) .cnt else .stub -- C_FE, C_CTR
  | 4 => -- C_TE
    if ok (line / 2) then
      match number % 100 with
      | 2 => .part (line / 2) .TP
      | 4 => .part (line / 2) .TR
      | _ => .stub
    else .stub
  | 12 => if ok (line / 2) then .part (line / 2) .Q else .stub -- C_QE
  | 9 => -- C_LE
    if ok line then
      match number % 100 with
      | 0 => .part line .LTS
      | 2 => .part line .LTK
      | 4 => .part line .LTW
      | _ => .stub
    else .stub
  | 50 => -- C_PUMPS
    if ok (number / 1000) ∧ number % 1000 = 1 then .pump (number / 1000) (number % 1000 + 1000) else .stub
  | g => -- C_LINE1VALVES … C_LINE9VALVES
    if 51 ≤ g ∧ g ≤ 59 ∧ ok (g - 51 + 1) ∧ (number = 1001 ∨ number = 1002 ∨ number = 1004 ∨ number = 1006 ∨
      (number / 1000 = 1 ∧ (number - 1000) % 10 ≤ 2 ∧ (number - 1000) / 10 ≤ 4)) then .valve (g - 51 + 1) number else .stub

/-- What is done with a device. -/
inductive Use where
  | readState | readActive | readValue | readFlow | readQuantity | setState | setValue
  deriving DecidableEq, Repr

/-- The groups of coils read (modbus_serv.cpp lines 172-191), with what is asked. -/
def coilUse (group : Nat) : Option Use :=
  if group = 0 ∨ group = 1 ∨ group = 2 ∨ group = 6 ∨ (50 ≤ group ∧ group ≤ 59) then some .readState
  else if group = 3 then some .readActive
  else none

/-- The groups of registers read (modbus_serv.cpp lines 323-347). -/
def regUse (group : Nat) : Option Use :=
  if group = 8 ∨ group = 4 ∨ group = 12 ∨ group = 13 ∨ group = 9 then some .readValue
  else if group = 5 then some .readFlow
  else if group = 7 then some .readQuantity
  else none

/-- The groups of coils written (modbus_serv.cpp lines 704-718). -/
def coilSet (group : Nat) : Option Use :=
  if group = 0 ∨ group = 1 ∨ group = 2 ∨ (50 ≤ group ∧ group ≤ 59) then some .setState else none

/-- The groups of registers written (modbus_serv.cpp lines 823-826). -/
def regSet (group : Nat) : Option Use := if group = 8 then some .setValue else none

/-- One object of a request for the device groups: nothing (`some none`), a use of a device, or (`none`) a call through a
pointer of a wrong class: `(i_counter*)` of a `device*` (modbus_serv.cpp lines 327-340) turns the pointer given by
`(device*)` of an `i_counter*` (line 1429) back, the placeholder is a `device` and no `i_counter` stands at its address. -/
def use (lines : Nat) (old : Nat → Bool) (u : Option Use) (group number : Nat) : Option (Option (Use × Dev)) :=
  match u with
  | none => some none
  | some .readFlow | some .readQuantity =>
    if 0 < number then
      match getDevice lines old group number with
      | .stub => none
      | d => some (u.map fun u => (u, d))
    else some none
  | some u => some (some (u, getDevice lines old group number))

/-! ### Recipes -/

open CipRec (getValue readName perLine)

/-- `1 == getRecipeValue( j, RV_IS_USED )`, with the recipes of a line in memory `m`. -/
def used (m : List Byte) (j : Nat) : Option Bool := (getValue m j 0).map (· == 0x3F800000)

/-- The loop of `RC_SELECT_REC` (modbus_serv.cpp lines 892-901) over the recipes from `j` on. -/
def selLoop (m : List Byte) (want : Int) (idle : Bool) : Nat → Nat → Int → Option (Option Nat)
  | 0, _, _ => some none
  | f + 1, j, k =>
    (used m j).bind fun u =>
      let k := if u then k + 1 else k
      if k = want ∧ idle then some (some (j + 1)) else selLoop m want idle f (j + 1) k

/-- `RC_SELECT_REC` (modbus_serv.cpp lines 887-903): the new value of `P_SELECT_REC` (`some none`: unchanged). -/
def selectRec (m : List Byte) (state : Int) (want : BitVec 16) : Option (Option Nat) :=
  selLoop m want.toInt (state == 0) perLine 0 (-1)

/-- `RC_LIST_LENGTH` (modbus_serv.cpp lines 432-442). -/
def listLength (m : List Byte) : Option Nat :=
  (List.range perLine).foldl (fun c j => c.bind fun c => (used m j).map fun u => if u then c + 1 else c) (some 0)

/-- The loop over the names (modbus_serv.cpp lines 459-472). -/
def rowLoop (m : List Byte) (row : Int) : Nat → Nat → Int → Option (Option (List Byte))
  | 0, _, _ => some none
  | f + 1, j, k =>
    (used m j).bind fun u =>
      let k := if u then k + 1 else k
      if k = row then (readName m j).map some else rowLoop m row f (j + 1) k

/-- The name shown for the register `obj` (modbus_serv.cpp lines 453-473, `RC_LIST_START` = 303, names of 24 registers);
`some none`: nothing is written into the answer. -/
def rowName (m : List Byte) (obj : Nat) : Option (Option (List Byte)) :=
  if 303 ≤ obj ∧ obj < 1300 then rowLoop m ((obj - 303) / 24 : Nat) perLine 0 (-1) else some none

/-- `GetParamsCount` (mcaRec.cpp lines 166-170). -/
def parCount : Nat := (CipRec.recLen - CipRec.parOffset) / 4

/-- A parameter of the recipe `cur` is read (modbus_serv.cpp lines 488-497, `RC_RECIPE_PAR_START` = 2300); `some none`: nothing is
written into the answer. -/
def readPar (s : CipRec.St) (obj : Nat) : Option (Option (BitVec 32)) :=
  let k : Int := ((obj - 2300) / 2 : Nat)
  if k < parCount then (getValue s.mem s.cur (k - 1)).map some else some none

/-- A parameter of the recipe `cur` is written (modbus_serv.cpp lines 948-957). -/
def writePar (s : CipRec.St) (now : Tm) (obj : Nat) (v : BitVec 32) : Option CipRec.St :=
  let k : Int := ((obj - 2300) / 2 : Nat)
  if k ≤ parCount then s.setRec now s.cur (k - 1) v else some s

/-! ### The update flags -/

/-- `updateRecFlag` and `confirmRecUpdateCtr` (modbus_serv.cpp lines 7-8); the pair for programs (lines 9-10) is alike. -/
structure Flags where
  flag : Nat → Bool := fun _ => true
  ctr : Nat → Nat := fun _ => 0

/-- What happens to the flags. -/
inductive Ev where
  /-- The panel writes `RC_LIST_UPDATE` of a line. -/
  | panel (line : Nat) (v : BitVec 16)
  /-- `UpdateRecipes`. -/
  | all
  /-- `UpdateLineRecipes`. -/
  | line (l : Int)
  deriving DecidableEq, Repr

def upd {α} (f : Nat → α) (i : Nat) (v : α) : Nat → α := fun j => if j = i then v else f j

/-- modbus_serv.cpp lines 907-924 and 1224-1249; the panel reaches lines from 1 to at most 10. -/
def step (s : Flags) : Ev → Flags
  | .panel l v =>
    if v ≠ 0 then ⟨upd s.flag l true, upd s.ctr l 0⟩
    else if s.ctr l + 1 ≥ 10 then ⟨upd s.flag l false, upd s.ctr l 0⟩
    else ⟨s.flag, upd s.ctr l (s.ctr l + 1)⟩
  | .all => ⟨fun i => if i < 11 then true else s.flag i, fun i => if i < 11 then 0 else s.ctr i⟩
  | .line l => if 0 < l ∧ l < 11 then ⟨upd s.flag l.toNat true, upd s.ctr l.toNat 0⟩ else s

end Ptusa.Panel
