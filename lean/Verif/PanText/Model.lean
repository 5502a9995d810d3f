import Verif.Tcp.Model
import Verif.Text.Model

/-!
# Texts of washing lines at the panel

Model of reading registers of the group `C_OTHER` of the Modbus server (PAC/common/modbus_serv.cpp 348-398): numbers of cars, statistics of the object, the time of the
controller; `PackString` (1072-1094).  Texts in memory are UTF-8, `Text.utf8ToWide` is `Utf8toUnicode`.  A line that does not exist because its number is 0, and a text whose conversion is
undefined, are the outcome `none`.  `time` is the text that `DateToChar` makes.
-/
namespace Ptusa.PanText
open Tcp (Byte Buf put)
open Text (utf8ToWide)

/-- A line: `ncar1` … `ncar4`, `objectstats`. -/
structure Line where
  car : Fin 4 → List Byte
  caustic : Int
  acid : List Byte
  wash : List Byte
  prog : List Byte

structure St where
  lines : List Line
  time : List Byte

/-- A word, the higher byte first. -/
def word (w : Nat) : List Byte := [BitVec.ofNat 8 (w / 256), BitVec.ofNat 8 w]

/-- A text as words (lines 1303-1308, 1185-1219). -/
def text (u : List Byte) : Option (List Byte) := (utf8ToWide u).map fun w => w.flatMap word

/-- `PackString` (lines 1072-1094): the bytes of each pair are exchanged, a last single one gets a blank. -/
def packString : List Byte → List Byte
  | [] => []
  | [a] => [0x20, a]
  | a :: b :: t => b :: a :: packString t

/-- Whether a register has something to show (lines 354-397). -/
def known (obj : Nat) : Bool := obj ∈ [0, 20, 40, 60, 199, 200, 224, 248, 300]

/-- What is written for a register of a line (lines 356-396). -/
def content (s : St) (l : Line) (obj : Nat) : Option (List Byte) :=
  match obj with
  | 0 => text (l.car 0)
  | 20 => text (l.car 1)
  | 40 => text (l.car 2)
  | 60 => text (l.car 3)
  | 199 => some (word (BitVec.ofInt 16 l.caustic).toNat)
  | 200 => text l.acid
  | 224 => text l.wash
  | 248 => text l.prog
  | 300 => some (packString s.time)
  | _ => some []

/-- How many registers are leapt over (`i += …`). -/
def skip (obj : Nat) : Nat :=
  if obj = 0 ∨ obj = 20 ∨ obj = 40 ∨ obj = 60 then 15
  else if obj = 200 ∨ obj = 224 ∨ obj = 248 then 23
  else if obj = 300 then 7
  else 0

/-- One pass at register `i` (lines 348-398): the memory and the next register. -/
def readOne (s : St) (start : Nat) (b : Buf) (i : Nat) : Option (Buf × Nat) :=
  let line := (i + start) / 1000
  if s.lines.length < line then some (b, i + 1)
  else
    let obj := i + start - line * 1000
    if known obj then
      if line = 0 then
        if obj = 300 ∧ s.lines ≠ [] then some (put b (3 + i * 2) (packString s.time), i + skip obj + 1) else none
      else
        match s.lines[line - 1]? with
        | none => none
        | some l => (content s l obj).map fun c => (put b (3 + i * 2) c, i + skip obj + 1)
    else some (b, i + 1)

/-- The loop (lines 318-320). -/
def readLoop (s : St) (start n : Nat) : Nat → Nat → Buf → Option Buf
  | 0, _, b => some b
  | f + 1, i, b => if i < n then (readOne s start b i).bind fun r => readLoop s start n f r.2 r.1 else some b

/-- `n` registers from `start` on are read into the memory `b`. -/
def read (s : St) (start n : Nat) (b : Buf) : Option Buf := readLoop s start n n 0 b

end Ptusa.PanText
