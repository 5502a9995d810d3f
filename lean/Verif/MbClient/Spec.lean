import Verif.MbClient.Model

/-!
# What is expected of a Modbus client

Modbus/TCP as it is defined: a message is four zero bytes (transaction and protocol), two bytes with the number of bytes
that follow, the station and the message itself; numbers go with the high byte first.
-/
namespace Ptusa.MbClient.Spec
open Ptusa.MbClient

/-- A number of 16 bits, high byte first. -/
def be16 (n : Nat) : List Byte := [BitVec.ofNat 8 (n / 256), BitVec.ofNat 8 n]

/-- A message with its head. -/
def adu (station : Byte) (pdu : List Byte) : List Byte := [0, 0, 0, 0] ++ be16 (pdu.length + 1) ++ [station] ++ pdu

/-- The message of a request; `d` are the bytes to write. -/
def pdu (d : List Byte) : Req → List Byte
  | .coils a q => 1 :: (be16 a.toNat ++ be16 q.toNat)
  | .discrete a q => 2 :: (be16 a.toNat ++ be16 q.toNat)
  | .holding a q => 3 :: (be16 a.toNat ++ be16 q.toNat)
  | .input a q => 4 :: (be16 a.toNat ++ be16 q.toNat)
  | .coil a v => 5 :: (be16 a.toNat ++ be16 (if v then 0xFF00 else 0))
  | .writeCoils a q => 0x0F :: (be16 a.toNat ++ be16 q.toNat ++ [BitVec.ofNat 8 d.length] ++ d)
  | .writeRegs a q => 0x10 :: (be16 a.toNat ++ be16 q.toNat ++ [BitVec.ofNat 8 d.length] ++ d)
  | .mask a n o => 0x16 :: (be16 a.toNat ++ be16 n.toNat ++ be16 o.toNat)
  | .readWrite ra rq wa wq => 0x17 :: (be16 ra.toNat ++ be16 rq.toNat ++ be16 wa.toNat ++ be16 wq.toNat ++
      [BitVec.ofNat 8 d.length] ++ d)

/-- The number of bytes a request writes. -/
def dataLen : Req → Nat
  | .writeCoils _ q => (q.toNat + 7) / 8
  | .writeRegs _ q => 2 * q.toNat
  | .readWrite _ _ _ wq => 2 * wq.toNat
  | _ => 0

/-- Where in the client's buffer the bytes to write begin. -/
def dataAt : Req → Nat
  | .readWrite .. => 17
  | _ => 13

/-- What the protocol allows. -/
def Legal : Req → Prop
  | .discrete a q | .coils a q => 1 ≤ q.toNat ∧ q.toNat ≤ 2000 ∧ a.toNat + q.toNat ≤ 65536
  | .holding a q | .input a q => 1 ≤ q.toNat ∧ q.toNat ≤ 125 ∧ a.toNat + q.toNat ≤ 65536
  | .coil a _ => a.toNat < 65536
  | .writeCoils a q => 1 ≤ q.toNat ∧ q.toNat ≤ 1968 ∧ a.toNat + q.toNat ≤ 65536
  | .writeRegs a q => 1 ≤ q.toNat ∧ q.toNat ≤ 123 ∧ a.toNat + q.toNat ≤ 65536
  | .readWrite ra rq wa wq => 1 ≤ rq.toNat ∧ rq.toNat ≤ 125 ∧ ra.toNat + rq.toNat ≤ 65536 ∧
      1 ≤ wq.toNat ∧ wq.toNat ≤ 121 ∧ wa.toNat + wq.toNat ≤ 65536
  | .mask a n o => a.toNat < 65536 ∧ n.toNat < 65536 ∧ o.toNat < 65536

/-- What this client can send of it. -/
def Fits : Req → Prop
  | .writeCoils _ q => q.toNat ≤ 255
  | .writeRegs _ q => q.toNat ≤ 121
  | .readWrite _ _ _ wq => wq.toNat ≤ 119
  | _ => True

/-- Registers as bytes. -/
def regBytes (l : List (BitVec 16)) : List Byte := l.flatMap fun v => be16 v.toNat

/-- A byte of eight bits, the first one lowest. -/
def bits8 (f : Nat → Bool) : Byte := BitVec.ofBoolListLE [f 0, f 1, f 2, f 3, f 4, f 5, f 6, f 7]

/-- Coils as bytes, the first one in the lowest bit. -/
def packed (x : Nat → Bool) (q : Nat) : List Byte :=
  (List.range ((q + 7) / 8)).map fun j => bits8 fun i => decide (8 * j + i < q) && x (8 * j + i)

/-- The answer with registers (functions 3, 4 and 0x17). -/
def regAnswer (st fc : Byte) (l : List (BitVec 16)) : List Byte :=
  adu st (fc :: BitVec.ofNat 8 (2 * l.length) :: regBytes l)

/-- The answer with coils (functions 1 and 2). -/
def coilAnswer (st fc : Byte) (x : Nat → Bool) (q : Nat) : List Byte :=
  adu st (fc :: BitVec.ofNat 8 ((q + 7) / 8) :: packed x q)

/-- The answer to a write (functions 5, 0x0F, 0x10): function, address, quantity or value. -/
def echo (st fc : Byte) (a q : Nat) : List Byte := adu st (fc :: (be16 a ++ be16 q))

/-- The answer when the device refuses. -/
def refusal (st fc code : Byte) : List Byte := adu st [fc ||| 0x80, code]

/-- The number of bytes in a good answer. -/
def answerLen : Req → Nat
  | .discrete _ q | .coils _ q => 9 + (q.toNat + 7) / 8
  | .holding _ q | .input _ q => 9 + 2 * q.toNat
  | .coil .. | .writeCoils .. | .writeRegs .. => 12
  | .readWrite _ rq _ _ => 9 + 2 * rq.toNat
  | .mask .. => 14

/-! ## Registers to write, over what was done with the client -/

/-- What a program does with a client. -/
inductive Op where
  | set (k : UInt) (v : BitVec 16)
  | bit (k o : UInt) (v : Bool)
  | call (r : Req) (net : Option (List Byte))

/-- `write_multiply_registers`, `force_multiply_coils`. -/
def isWrite : Req → Bool
  | .writeCoils .. | .writeRegs .. => true
  | _ => false

/-- A register with one bit set or cleared. -/
def withBit16 (x : BitVec 16) (o : Nat) (v : Bool) : BitVec 16 :=
  if v then x ||| (1#16 <<< o) else x &&& ~~~(1#16 <<< o)

/-- The registers as they were set since creation or since the last write; 0 when not set. -/
def image : List Op → Nat → BitVec 16
  | [], _ => 0
  | .set k v :: t, j => if k.toNat = j then v else image t j
  | .bit k o v :: t, j => if k.toNat = j then withBit16 (image t j) o.toNat v else image t j
  | .call r _ :: t, j => if isWrite r then 0 else image t j

/-- The client after what was done (newest first). -/
def after (c : Cl) : List Op → Option Cl
  | [] => some c
  | .set k v :: t => (after c t).map fun c => c.setInt2 k v
  | .bit k o v :: t => (after c t).bind fun c => c.regSetBit k o v
  | .call r net :: t => (after c t).bind fun c => (c.call r net).map fun p => p.2.2

/-- Since creation or since the last write only registers that fit were set, and other calls got short answers. -/
def Quiet : List Op → Prop
  | [] => True
  | .set k _ :: t => k.toNat ≤ 120 ∧ Quiet t
  | .bit k o _ :: t => k.toNat ≤ 120 ∧ o.toNat < 16 ∧ Quiet t
  | .call r net :: t => isWrite r = true ∨ (net.getD []).length ≤ 13 ∧ r.sync = true ∧ Quiet t

/-- The coils as they were set (newest first); off when not set. -/
def coilImage : List (UInt × Bool) → Nat → Bool
  | [], _ => false
  | (k, v) :: t, j => if k.toNat = j then v else coilImage t j

/-- The client after `set_bit` calls (newest first). -/
def afterBits (c : Cl) : List (UInt × Bool) → Option Cl
  | [] => some c
  | (k, v) :: t => (afterBits c t).bind fun c => c.setBit k v

/-- The client after `mask_set_bit` calls (newest first). -/
def afterMasks (c : Cl) : List (Int × Bool) → Option Cl
  | [] => some c
  | (k, v) :: t => (afterMasks c t).bind fun c => c.maskSetBit k v

/-- What was asked of a bit last, if anything was. -/
def asked : List (Int × Bool) → Nat → Option Bool
  | [], _ => none
  | (k, v) :: t, j => if k = j then some v else asked t j

/-- What a device does with a mask (function 0x16). -/
def masked (r : BitVec 16) (n o : BitVec 16) : BitVec 16 := (r &&& n) ||| (o &&& ~~~n)

end Ptusa.MbClient.Spec
