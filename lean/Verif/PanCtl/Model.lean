import Verif.Modbus.Model

/-!
# State and commands of washing lines at the panel

Model of the group `C_MSA_CONTROL` of the Modbus server (PAC/common/modbus_serv.cpp 512-562 reading registers, 971-984 writing them) and of
`cipline_tech_object::SetCommand` (cip_tech_def.cpp 3135-3146), with what changes the state of a line from outside a step: a fault of a step (`EvalCipInProgress`,
2601-2632) and blocking (`EvalBlock`, 1490-1521).

The temperature of the return is given as its 32 bits.  Lines are those that exist; a command for another one is the outcome `none` (see C73).
Left out: other groups (see `Panel`), the frame around the registers.
-/
namespace Ptusa.PanCtl
open Tcp (Byte Buf put)
open Modbus (packInt16 packFloat)

/-- A line: `state`, `curstep`, `ncmd`, the temperature of the return that is asked for. -/
structure Line where
  state : Int := 0
  step : Int := 0
  cmd : Int := 0
  temp : BitVec 32 := 0
  deriving DecidableEq, Repr

/-- The number for a state (lines 524-550). -/
def shown (s : Int) : Int :=
  if s < 0 then
    if s = -2 then 80 else if s = -1000 then 90 else if s = -1 then 50 else -s
  else s

/-- One pass of the reading loop at register `i`: the memory and how far `i` goes (lines 512-562). -/
def readOne (ls : List Line) (msa : Int) (start : Nat) (b : Buf) (i : Nat) : Buf × Nat :=
  let obj := i + start
  match ls[obj / 100]? with
  | none => (b, 1)
  | some l =>
    match obj % 100 with
    | 1 => (put b (3 + i * 2) (packInt16 (BitVec.ofInt 16 l.step)), 1)
    | 2 => (put b (3 + i * 2) (packInt16 (BitVec.ofInt 16 (shown l.state))), 1)
    | 3 => (put b (3 + i * 2) (packFloat l.temp), 2)
    | 5 => (put b (3 + i * 2) (packInt16 (BitVec.ofInt 16 msa)), 1)
    | _ => (b, 1)

/-- The loop over `numberofElements` registers (lines 318-320). -/
def readLoop (ls : List Line) (msa : Int) (start n : Nat) : Nat → Nat → Buf → Buf
  | 0, _, b => b
  | f + 1, i, b =>
    if i < n then
      let r := readOne ls msa start b i
      readLoop ls msa start n f (i + r.2) r.1
    else b

/-- Registers of the group are read: `n` from number `start` on. -/
def read (ls : List Line) (msa : Int) (start n : Nat) (b : Buf) : Buf := readLoop ls msa start n n 0 b

/-- `SetCommand` (cip_tech_def.cpp 3135-3146): the line and what is returned. -/
def Line.setCommand (l : Line) (c : Int) : Line × Int :=
  if l.cmd = 0 then ({ l with cmd := c }, 0) else ({ l with cmd := c }, l.cmd)

/-- One register is written (lines 971-984). -/
def writeOne (ls : List Line) (obj : Nat) (v : BitVec 16) : Option (List Line) :=
  if obj % 100 = 0 then
    match ls[obj / 100]? with
    | some l => some (ls.set (obj / 100) (l.setCommand v.toInt).1)
    | none => none
  else some ls

/-- Registers are written from number `start` on. -/
def write : List Line → Nat → List (BitVec 16) → Option (List Line)
  | ls, _, [] => some ls
  | ls, start, v :: vs => (writeOne ls start v).bind fun ls => write ls (start + 1) vs

/-- A step gives an error (cip_tech_def.cpp 2618-2625). -/
def Line.fault (l : Line) (res : Int) : Line := if res < 0 then { l with state := res } else l

end Ptusa.PanCtl
