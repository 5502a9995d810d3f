import Verif.Modbus.Model
import Verif.Tcp.Spec
import Verif.Text.Spec

/-!
# What a Modbus client expects
-/
namespace Ptusa.Modbus

open Tcp (Byte Buf put get bufSize)

/-- A Modbus/TCP frame: number of the exchange, protocol 0, length, and the message of the unit. -/
def frame (t1 t2 : Byte) (msg : List Byte) : List Byte :=
  [t1, t2, 0, 0, BitVec.ofNat 8 (msg.length / 256), BitVec.ofNat 8 msg.length] ++ msg

/-- Unit, function, address and number of elements (or the value of a coil). -/
def head (unit fn : Byte) (addr n : BitVec 16) : List Byte :=
  [unit, fn, addr.extractLsb' 8 8, addr.extractLsb' 0 8, n.extractLsb' 8 8, n.extractLsb' 0 8]

/-- The message to write registers: the head, the number of bytes, the bytes. -/
def writeMsg (unit : Byte) (addr n : BitVec 16) (bytes : List Byte) : List Byte :=
  head unit 0x10 addr n ++ [BitVec.ofNat 8 bytes.length] ++ bytes

/-- Bit `i` of the bytes of a reply with coils, lowest bit of the first byte first. -/
def coil (l : List Byte) (i : Nat) : Bool := (l.getD (i / 8) 0).getLsbD (i % 8)

/-- Register `i` of the bytes of a reply with registers, high byte first. -/
def reg (l : List Byte) (i : Nat) : Nat := (l.getD (2 * i) 0).toNat * 256 + (l.getD (2 * i + 1) 0).toNat

/-- `HH:MM:SS` of a time in milliseconds. -/
def clock (ms : Nat) : List Nat :=
  let h := ms / 3600000 % 100
  let m := ms / 60000 % 60
  let s := ms / 1000 % 60
  [48 + h / 10, 48 + h % 10, 58, 48 + m / 10, 48 + m % 10, 58, 48 + s / 10, 48 + s % 10]

/-- The registers of a value: numbers of two registers with the low register first, a time as eight characters of which the
first of each two is the low byte, texts in Unicode with a closing zero. -/
def Reg.words : Reg → Option (List Nat)
  | .int16 v => some [v.toNat]
  | .float v => some [v.toNat % 65536, v.toNat / 65536]
  | .uint32 v => some [v.toNat % 65536, v.toNat / 65536 % 65536]
  | .time t =>
    match clock t.toNat with
    | [a, b, c, d, e, f, g, h] => some [a + 256 * b, c + 256 * d, e + 256 * f, g + 256 * h]
    | _ => none
  | .text l => Text.utf8ToWide l
  | .other => some []

/-- The answer to one message: the state of the program afterwards and the bytes sent.  A result of zero sends the bytes of
the request, as the program left them, back. -/
def exchange {σ} (p : Prog σ) (s : σ) (t1 t2 : Byte) (msg : List Byte) : Option (σ × List Byte) :=
  (serve p s (Tcp.zeros msg)).map fun o =>
    (o.state, frame t1 t2 (get o.buf 0 (if 0 < o.len then o.len else msg.length)))

end Ptusa.Modbus
