import Verif.Tcp.Model
import Verif.Text.Model

/-!
# The Modbus server

Model of `ModbusServ::ModbusService` (PAC/common/modbus_serv.cpp lines 145-1054) as the service 15 of the TCP exchange
(PAC/linux/l_tcp_cmctr.cpp lines 876-888), where `data` and `outdata` are the same memory.  The Lua functions of the project
are parameters.  Simplifications: which of them exist does not change (the program looks once); a table is the list of its
values in the order of `lua_next`, for registers as complete pairs.  The built-in objects of a cleaning station (`isMsa`)
are modelled only as far as the choice of the line, at the end of this file.
-/
namespace Ptusa.Modbus

open Tcp (Byte Buf put get bufSize)

/-- One pair of the table of `read_holding_registers` (modbus_serv.cpp lines 626-674), after the conversion to the C type. -/
inductive Reg where
  | int16 (v : BitVec 16)
  | float (v : BitVec 32)
  | time (t : BitVec 64)
  | text (l : List Byte)
  | uint32 (v : BitVec 64)
  /-- Any other type: nothing is written. -/
  | other
  deriving DecidableEq, Repr

/-- The functions of the project.  A call gives `none` when it failed; a reading call gives `some none` when the result is
not a table. -/
structure Prog (σ : Type) where
  readCoils : Option (σ → Nat → Nat → Nat → σ × Option (Option (List Int)))
  readRegs : Option (σ → Nat → Nat → Nat → σ × Option (Option (List Reg)))
  writeCoil : Option (σ → Nat → Nat → Nat → σ × Option Unit)
  writeRegs : Option (σ → Nat → Nat → Nat → List Byte → σ × Option Unit)

/-- `ForceBit` (modbus_serv.cpp lines 1056-1069). -/
def forceBit (b : Buf) (off bit : Nat) (v : Bool) : Buf :=
  let i := off + bit / 8
  put b i [if v then b i ||| (1#8 <<< (bit % 8)) else b i &&& (0xFF#8 ^^^ (1#8 <<< (bit % 8)))]

/-- The loop over the table of coils from number `i` on (modbus_serv.cpp lines 287-297). -/
def putCoils (b : Buf) : Nat → List Int → Buf
  | _, [] => b
  | i, v :: vs => putCoils (forceBit b 3 i (v != 0)) (i + 1) vs

/-- `PackInt16` (modbus_serv.cpp lines 1170-1175). -/
def packInt16 (v : BitVec 16) : List Byte := [v.extractLsb' 8 8, v.extractLsb' 0 8]

/-- `PackFloat` (modbus_serv.cpp lines 1117-1124), on the bits of the number. -/
def packFloat (v : BitVec 32) : List Byte :=
  [v.extractLsb' 8 8, v.extractLsb' 0 8, v.extractLsb' 24 8, v.extractLsb' 16 8]

/-- `PackLong` (modbus_serv.cpp lines 1133-1140). -/
def packLong (v : BitVec 64) : List Byte :=
  [v.extractLsb' 8 8, v.extractLsb' 0 8, v.extractLsb' 24 8, v.extractLsb' 16 8]

/-- `UnpackInt16` (modbus_serv.cpp lines 1177-1183). -/
def unpackInt16 : List Byte → BitVec 16
  | a :: b :: _ => a ++ b
  | _ => 0

/-- `UnpackFloat` (modbus_serv.cpp lines 1142-1150). -/
def unpackFloat : List Byte → BitVec 32
  | a :: b :: c :: d :: _ => (c ++ d ++ a ++ b : BitVec 32)
  | _ => 0

/-- `UnpackLong` (modbus_serv.cpp lines 1160-1168). -/
def unpackLong : List Byte → BitVec 64
  | a :: b :: c :: d :: _ => (c ++ d ++ a ++ b : BitVec 32).setWidth 64
  | _ => 0

/-- One digit of `sprintf( "%.1hd" )` for a number below ten. -/
def digit (n : Nat) : Byte := BitVec.ofNat 8 (48 + n)

/-- `PackTime` in milliseconds (modbus_serv.cpp lines 1095-1115), with the zero `sprintf` adds. -/
def packTime (t : BitVec 64) : List Byte :=
  let temp := t.toNat / 1000
  let s := temp % 60
  let m := (temp / 60) % 60
  let h := (temp / 3600) % 100
  [digit (h % 10), digit (h / 10), digit (m / 10), 58, 58, digit (m % 10), digit (s % 10), digit (s / 10), 0]

/-- The words of a text as bytes, high byte first (`CP1251toUnicode`, modbus_serv.cpp lines 1185-1219). -/
def wordBytes (ws : List Nat) : List Byte := ws.flatMap fun w => [BitVec.ofNat 8 (w / 256), BitVec.ofNat 8 w]

/-- What one pair writes. -/
def Reg.bytes : Reg → Option (List Byte)
  | .int16 v => some (packInt16 v)
  | .float v => some (packFloat v)
  | .time t => some (packTime t)
  | .text l => (Text.utf8ToWide l).map wordBytes
  | .uint32 v => some (packLong v)
  | .other => some []

/-- The loop over the table of registers from number `i` on (modbus_serv.cpp lines 623-676): every pair is one register
further.  Writing behind the exchange buffer is undefined. -/
def putRegs (b : Buf) : Nat → List Reg → Option Buf
  | _, [] => some b
  | i, r :: rs =>
    r.bytes.bind fun l => if 6 + (3 + 2 * i) + l.length ≤ bufSize then putRegs (put b (3 + 2 * i) l) (i + 1) rs else none

/-- What the service leaves: the state of the program, the memory and the returned value. -/
structure Out (σ : Type) where
  state : σ
  buf : Buf
  len : Nat

/-- `data[2] * 256 + data[3]` and `data[4] * 256 + data[5]`. -/
def pair (b : Buf) (i : Nat) : Nat := (b i).toNat * 256 + (b (i + 1)).toNat

/-- `numberofBytes` (modbus_serv.cpp lines 157-158), an `unsigned char`. -/
def coilBytes (n : Nat) : Nat := if n % 8 ≠ 0 then (n / 8 % 256 + 1) % 256 else n / 8 % 256

/-- `ModbusService` without a cleaning station. -/
def serve {σ} (p : Prog σ) (s : σ) (m : Buf) : Option (Out σ) :=
  let group := (m 0).toNat
  let addr := pair m 2
  let n := pair m 4
  match (m 1).toNat with
  | 0x01 => -- lines 153-303
    let b := put m 2 [BitVec.ofNat 8 (coilBytes n)]
    match p.readCoils with
    | none => some ⟨s, b, 3 + coilBytes n⟩
    | some f =>
      match f s group addr n with
      | (s', none) => some ⟨s', b, 0⟩
      | (s', some none) => some ⟨s', b, 3 + coilBytes n⟩
      | (s', some (some vs)) =>
        if vs.length / 8 + 10 ≤ bufSize then some ⟨s', putCoils b 0 vs, 3 + coilBytes n⟩ else none
  | 0x03 => -- lines 305-690
    let b := put m 2 [BitVec.ofNat 8 (2 * n)]
    match p.readRegs with
    | none => some ⟨s, b, 3 + n * 2⟩
    | some f =>
      match f s group addr n with
      | (s', none) => some ⟨s', b, 0⟩
      | (s', some none) => some ⟨s', b, 0⟩
      | (s', some (some rs)) => (putRegs b 0 rs).map fun b' => ⟨s', b', 3 + n * 2⟩
  | 0x05 => -- lines 692-804
    match p.writeCoil with
    | none => some ⟨s, m, 6⟩
    | some f =>
      match f s group addr (if 0 < (m 4).toNat then 1 else 0) with
      | (s', none) => some ⟨s', m, 0⟩
      | (s', some ()) => some ⟨s', m, 6⟩
  | 0x10 => -- lines 806-1050
    match p.writeRegs with
    | none => some ⟨s, m, 6⟩
    | some f =>
      match f s group addr n (get m 7 (2 * n)) with
      | (s', none) => some ⟨s', m, 0⟩
      | (s', some ()) => some ⟨s', m, 6⟩
  | _ => some ⟨s, m, 0⟩ -- line 1053

/-- The service as the TCP exchange calls it, in the state `s` of the program.  The memory behind the exchange buffer counts
as zero: no request reaches it, since a request names at most 65535 registers. -/
def service {σ} (p : Prog σ) (s : σ) : Tcp.Srv := fun _ m =>
  match serve p s (fun i => if i < bufSize - 6 then m i else 0) with
  | none => (0, List.replicate bufSize 0)
  | some o => (BitVec.ofNat 64 o.len, get o.buf 0 (bufSize - 6))

/-! ### Lines of a cleaning station -/

/-- Groups of the objects (modbus_serv.h lines 11-54). -/
inductive Group where
  | other | recipes | control
  /-- `C_MSA_LINE1PARAMS + k`, up to nine lines. -/
  | lineParams (k : Fin 9)
  deriving DecidableEq, Repr

/-- What a request does with an object. -/
inductive Act where
  | readCoil | readReg | writeCoil | writeReg
  deriving DecidableEq, Repr

/-- The index into `Mdls` used for the object `obj` of a group when there are `cnt` lines: `none` when no line is used
(modbus_serv.cpp lines 193-243, 348-402, 512-577, 719-757, 827-1003).  The numbers inside a line are the cases of the
inner `switch`. -/
def lineIndex (cnt : Nat) (g : Group) (a : Act) (obj : Nat) : Option Int :=
  match g, a with
  | .other, .readCoil | .other, .writeCoil =>
    let line := obj / 1000
    if cnt < line then none
    else if 101 ≤ obj - line * 1000 ∧ obj - line * 1000 ≤ 104 then some ((line : Int) - 1) else none
  | .other, .readReg =>
    let line := obj / 1000
    if cnt < line then none
    else if obj - line * 1000 = 300 then some 0
    else if obj - line * 1000 ∈ [0, 20, 40, 60, 199, 200, 224, 248] then some ((line : Int) - 1) else none
  | .other, .writeReg =>
    let line := obj / 1000
    if cnt < line then none
    else if obj - line * 1000 ∈ [0, 20, 40, 60] then some ((line : Int) - 1) else none
  | .recipes, .readReg | .recipes, .writeReg =>
    let line := obj / 3000 + 1
    if cnt < line then none else some ((line : Int) - 1)
  | .control, .readCoil =>
    let line := obj / 100
    if line ≤ cnt ∧ obj - 100 * line ≤ 1 then some ((line : Int) - 1) else none
  | .control, .readReg =>
    let line := obj / 100
    if line < cnt ∧ 1 ≤ obj - 100 * line ∧ obj - 100 * line ≤ 3 then some line else none
  | .control, .writeReg =>
    let line := obj / 100
    if obj - 100 * line = 0 then some line else none
  | .lineParams k, _ => if k.val < cnt then some k.val else none
  | .recipes, _ | .control, .writeCoil => none

end Ptusa.Modbus
