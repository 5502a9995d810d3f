import Mathlib.Logic.Function.Basic

/-!
# The Modbus client

Model of `modbus_client` (PAC/common/modbus_client.cpp, modbus_client.h) over `tcp_client` (PAC/common/tcp_client.cpp) and
`linux_tcp_client` (PAC/linux/l_tcp_client.cpp).  The buffer has 256 bytes (modbus_client.cpp line 11).  What the network
does is a parameter.  `unsigned int` has 32 bits, `char` 8, and numbers are stored with the low byte first.  An access
outside the buffer is undefined (`none`).
-/
namespace Ptusa.MbClient

abbrev Byte := BitVec 8
abbrev UInt := BitVec 32

/-- `tcpclient->buff`: 256 bytes. -/
abbrev Buf := Nat → Byte

/-- `buff_size`. -/
def size : Nat := 256

/-- High and low byte of an `unsigned int` cut to `int_2` (modbus_client.cpp lines 33-36 and others). -/
def hi (x : UInt) : Byte := x.extractLsb' 8 8
def lo (x : UInt) : Byte := x.extractLsb' 0 8

/-- Bytes written from position `p` on. -/
def put (p : Nat) (l : List Byte) (b : Buf) : Buf := fun i => if p ≤ i ∧ i - p < l.length then l.getD (i - p) 0 else b i

/-- The first `n` bytes of the buffer as they are sent; undefined beyond the buffer. -/
def frame (n : Nat) (b : Buf) : Option (List Byte) := if n ≤ size then some ((List.range n).map b) else none

/-! ## Requests -/

/-- A request and what it is asked with.  `write` takes what is in the buffer. -/
inductive Req where
  | discrete (a q : UInt)
  | coils (a q : UInt)
  | holding (a q : UInt)
  | input (a q : UInt)
  | coil (a : UInt) (v : Bool)
  | writeCoils (a q : UInt)
  | writeRegs (a q : UInt)
  | readWrite (ra rq wa wq : UInt)
  | mask (a and or : UInt)

/-- Number of bytes for `q` coils in `force_multiply_coils` (modbus_client.cpp lines 156 and 606): `q` is cut to 8 bits first. -/
def coilBytes (q : UInt) : Byte := BitVec.ofNat 8 (q.toNat % 256 / 8 + if q.toNat % 256 % 8 = 0 then 0 else 1)

/-- Number of bytes for `q` registers (modbus_client.cpp lines 185, 643 and 687), cut to 8 bits. -/
def regBytes (q : UInt) : Byte := BitVec.ofNat 8 (2 * q.toNat)

/-- `int_2` of `n` plus a byte: high and low byte of the length (modbus_client.cpp lines 190-191, 648-649 and 692-693). -/
def lenHi (n : Nat) (b : Byte) : Byte := BitVec.ofNat 8 ((n + b.toNat) / 256)
def lenLo (n : Nat) (b : Byte) : Byte := BitVec.ofNat 8 (n + b.toNat)

/-- The head of a request as it is written into the buffer (modbus_client.cpp lines 25-36, 51-62, 77-88, 103-114, 129-141,
157-169, 186-198, 688-704, 728-741; the same in the functions that do not wait, lines 419-430, 464-475, 499-510, 534-545,
570-582, 607-619, 644-656). -/
def Req.head (st : Byte) : Req → List Byte
  | .discrete a q => [0, 0, 0, 0, 0, 6, st, 2, hi a, lo a, hi q, lo q]
  | .coils a q => [0, 0, 0, 0, 0, 6, st, 1, hi a, lo a, hi q, lo q]
  | .holding a q => [0, 0, 0, 0, 0, 6, st, 3, hi a, lo a, hi q, lo q]
  | .input a q => [0, 0, 0, 0, 0, 6, st, 4, hi a, lo a, hi q, lo q]
  | .coil a v => [0, 0, 0, 0, 0, 6, st, 5, hi a, lo a, if v then 0xFF else 0, 0]
  | .writeCoils a q => [0, 0, 0, 0, 0, 7 + coilBytes q, st, 0x0F, hi a, lo a, hi q, lo q, coilBytes q]
  | .writeRegs a q =>
    [0, 0, 0, 0, lenHi 7 (regBytes q), lenLo 7 (regBytes q), st, 0x10, hi a, lo a, hi q, lo q, regBytes q]
  | .readWrite ra rq wa wq =>
    [0, 0, 0, 0, lenHi 11 (regBytes wq), lenLo 11 (regBytes wq), st, 0x17, hi ra, lo ra, hi rq, lo rq, hi wa, lo wa,
      hi wq, lo wq, regBytes wq]
  | .mask a and or => [0, 0, 0, 0, 0, 8, st, 0x16, hi a, lo a, hi and, lo and, hi or, lo or]

/-- The number of bytes sent. -/
def Req.sent : Req → Nat
  | .writeCoils _ q => 13 + (coilBytes q).toNat
  | .writeRegs _ q => 13 + (regBytes q).toNat
  | .readWrite _ _ _ wq => 17 + (regBytes wq).toNat
  | .mask .. => 14
  | _ => 12

/-- The length of the answer that is taken for a good one (modbus_client.cpp lines 38, 64, 90, 116, 143, 172, 201, 432,
477, 512, 547, 584, 621, 658, 706, 743), computed with 32 bits. -/
def Req.expected : Req → UInt
  | .discrete _ q | .coils _ q => 9 + BitVec.ofNat 32 (q.toNat / 8) + if q.toNat % 8 = 0 then 0 else 1
  | .holding _ q | .input _ q => 9 + q * 2
  | .coil .. | .writeCoils .. | .writeRegs .. => 12
  | .readWrite _ rq _ _ => 9 + rq * 2
  | .mask .. => 14

/-- The requests for which there is a function that waits for the answer. -/
def Req.sync : Req → Bool
  | .readWrite .. | .mask .. => false
  | _ => true

/-! ## Functions that wait for the answer -/

/-- The client: the buffer, the station number, the masks (`none` before `mask_reset`: they are not initialised). -/
structure Cl where
  buf : Buf
  station : Byte := 1
  masks : Option (UInt × UInt) := none

/-- `zero_output_buff` (modbus_client.cpp lines 212-215). -/
def zeroFrom (p : Nat) (b : Buf) : Buf := fun i => if p ≤ i then 0 else b i

/-- Creation (modbus_client.cpp lines 5-17); the first 13 bytes are whatever was in memory. -/
def Cl.initial (junk : Buf) : Cl := { buf := zeroFrom 13 junk }

/-- A function that waits for the answer (modbus_client.cpp lines 23-210) over `Communicate` (l_tcp_client.cpp lines
10-38): the frame sent, the result (1 or 0) and the new state.  `net`: `none` when there is no connection or no answer in
time; otherwise the bytes of the answer that were there, at most 256. -/
def Cl.call (c : Cl) (r : Req) (net : Option (List Byte)) : Option (List Byte × Bool × Cl) :=
  let b := put 0 (r.head c.station) c.buf
  (frame r.sent b).map fun f =>
    let got := (net.getD []).take size
    let b := put 0 got b
    let b := match r with
      | .writeCoils .. | .writeRegs .. => zeroFrom 13 b
      | _ => b
    (f, BitVec.ofNat 32 got.length == r.expected, { c with buf := b })

/-! ## Access to the buffer -/

/-- `set_byte` (modbus_client.cpp lines 217-224). -/
def Cl.setByte (c : Cl) (a : Int) (v : Byte) : Cl :=
  if 242 < a ∨ a + 13 < 0 then c else { c with buf := Function.update c.buf (13 + a).toNat v }

/-- `get_byte` (modbus_client.cpp lines 226-233). -/
def Cl.getByte (c : Cl) (a : Int) : Byte := if 246 < a ∨ a + 9 < 0 then 0 else c.buf (9 + a).toNat

/-- `set_int2` (modbus_client.cpp lines 235-243). -/
def Cl.setInt2 (c : Cl) (a : UInt) (v : BitVec 16) : Cl :=
  if 241 < (a * 2).toNat then c
  else { c with buf := put (13 + (a * 2).toNat) [v.extractLsb' 8 8, v.extractLsb' 0 8] c.buf }

/-- `get_int2` (modbus_client.cpp lines 245-255). -/
def Cl.getInt2 (c : Cl) (a : UInt) : BitVec 16 :=
  if 245 < (a * 2).toNat then 0 else c.buf (9 + (a * 2).toNat) ++ c.buf (10 + (a * 2).toNat)

/-- `set_int4`, `set_float` (modbus_client.cpp lines 257-267 and 283-293); `v` are the bits of the value. -/
def Cl.setInt4 (c : Cl) (a : UInt) (v : BitVec 32) : Cl :=
  if 239 < (a * 2).toNat then c
  else
    let l := [v.extractLsb' 8 8, v.extractLsb' 0 8, v.extractLsb' 24 8, v.extractLsb' 16 8]
    { c with buf := put (13 + (a * 2).toNat) l c.buf }

/-- `get_int4`, `get_float` (modbus_client.cpp lines 269-281 and 295-307). -/
def Cl.getInt4 (c : Cl) (a : UInt) : BitVec 32 :=
  if 243 < (a * 2).toNat then 0
  else (c.buf (11 + (a * 2).toNat) ++ c.buf (12 + (a * 2).toNat)) ++
    (c.buf (9 + (a * 2).toNat) ++ c.buf (10 + (a * 2).toNat))

/-- Bit `n` of a byte set to `v`: `x ^= (-v ^ x) & (1 << n)`. -/
def withBit (x : Byte) (n : Nat) (v : Bool) : Byte :=
  x ^^^ (((if v then BitVec.allOnes 8 else 0) ^^^ x) &&& (1#8 <<< n))

/-- `set_bit` (modbus_client.cpp lines 309-314): the number of the byte is not checked. -/
def Cl.setBit (c : Cl) (a : UInt) (v : Bool) : Option Cl :=
  let p := 13 + a.toNat / 8
  if p < size then some { c with buf := Function.update c.buf p (withBit (c.buf p) (a.toNat % 8) v) } else none

/-- `get_bit` (modbus_client.cpp lines 336-346). -/
def Cl.getBit (c : Cl) (a : UInt) : Option Bool :=
  let p := 9 + a.toNat / 8
  if p < size then some ((c.buf p).getLsbD (a.toNat % 8)) else none

/-- `reg_get_bit` (modbus_client.cpp lines 316-327). -/
def Cl.regGetBit (c : Cl) (reg off : UInt) : Option Bool :=
  let p := (9 + (reg * 2 + if off.toNat < 8 then 1 else 0)).toNat
  if p < size then some ((c.buf p).getLsbD (off.toNat % 8)) else none

/-- `reg_set_bit` (modbus_client.cpp lines 329-334): the number of the byte is an `int`. -/
def Cl.regSetBit (c : Cl) (reg off : UInt) (v : Bool) : Option Cl :=
  let p := 13 + (reg * 2 + if off.toNat < 8 then 1 else 0).toInt
  if 0 ≤ p ∧ p < size then
    some { c with buf := Function.update c.buf p.toNat (withBit (c.buf p.toNat) (off.toNat % 8) v) }
  else none

/-- `mask_reset` (modbus_client.cpp lines 348-352). -/
def Cl.maskReset (c : Cl) : Cl := { c with masks := some (0xFFFF, 0) }

/-- `mask_set_bit` (modbus_client.cpp lines 354-366): reads masks that may not be initialised. -/
def Cl.maskSetBit (c : Cl) (pos : Int) (v : Bool) : Option Cl :=
  if pos < 0 ∨ 15 < pos then some c
  else c.masks.map fun (a, o) =>
    { c with masks := some (a &&& ~~~(1#32 <<< pos.toNat),
        if v then o ||| (1#32 <<< pos.toNat) else o &&& ~~~(1#32 <<< pos.toNat)) }

/-- The request of `async_mask_write_register( writeaddress )` (modbus_client.cpp lines 749-752). -/
def Cl.maskReq (c : Cl) (a : UInt) : Option Req := c.masks.map fun (n, o) => .mask a n o

/-- `reverse` (modbus_client.cpp lines 368-380). -/
def reverse (b : Byte) : Byte :=
  let b := ((b &&& 0xF0) >>> 4) ||| ((b &&& 0x0F) <<< 4)
  let b := ((b &&& 0xCC) >>> 2) ||| ((b &&& 0x33) <<< 2)
  ((b &&& 0xAA) >>> 1) ||| ((b &&& 0x55) <<< 1)

/-! ## Functions that do not wait -/

/-- `ASYNCCONNECTSTATE` (tcp_client.h lines 22-27). -/
inductive Link where
  | off
  | busy
  | on
deriving DecidableEq

/-- What the network does during a call: what an attempt to connect comes to (`off` also stands for the pause between
attempts), and whether the bytes could be sent. -/
structure Net where
  link : Link
  sent : Bool

/-- A client with its connection: `async_result` (−3 error, −2 timeout, −1 busy, 0 free, otherwise the length of the
answer), `modbus_expected_length`, `connectedstate`, `async_bytes_to_send`, and whether the communicator waits for the
answer (tcp_communicator::add_async_client). -/
structure St where
  cl : Cl
  result : Int := 0
  expected : UInt := 0
  link : Link := .off
  bytes : Nat := 0
  waits : Bool := false

/-- `AsyncSend` (l_tcp_client.cpp lines 271-295) with `checkConnection` (tcp_client.cpp lines 65-104) and `AsyncConnect`
(l_tcp_client.cpp lines 139-260; after a connection that is refused at once it goes on as if connected, with
socket 0: here an attempt that connects and cannot send): the frame that went out, if one did. -/
def St.send (s : St) (n : Nat) (net : Net) : Option (Option (List Byte) × St) :=
  let s := { s with result := -1, bytes := n }
  let link := if s.link = .on then .on else net.link
  match link with
  | .off => some (none, { s with result := -3, link := .off })
  | .busy => some (none, { s with link := .busy })
  | .on =>
    (frame n s.cl.buf).map fun f =>
      if net.sent then (some f, { s with link := .on, waits := true })
      else (none, { s with result := -3, link := .off })

/-- `get_async_result` (l_tcp_client.cpp lines 327-334): while a connection is being made the same bytes are sent again. -/
def St.poll (s : St) (net : Net) : Option (Option (List Byte) × St) :=
  if s.link = .busy then s.send s.bytes net else some (none, s)

/-- Whether a length ends the exchange (modbus_client.cpp lines 412, 673 and others). -/
def Req.takes (r : Req) (expected : UInt) (ar : Int) : Bool :=
  decide (0 < ar) && (decide ((expected.toInt) = ar) || match r with
    | .readWrite .. => decide (ar = 9)
    | _ => false)

/-- One of the functions that do not wait (modbus_client.cpp lines 403-747): the frame that went out, the result (1, 0 or
−1) and the new state.  `n1` is what the network does while the state is asked, `n2` while the request is sent. -/
def St.call (s : St) (r : Req) (n1 n2 : Net) : Option (Option (List Byte) × Int × St) :=
  (s.poll n1).bind fun (f1, s) =>
    if s.result = -1 then some (f1, 0, s)
    else if r.takes s.expected s.result then
      some (f1, if s.expected.toInt = s.result then 1 else -1, { s with result := 0 })
    else
      let s := { s with cl := { s.cl with buf := put 0 (r.head s.cl.station) s.cl.buf } }
      (s.send r.sent n2).map fun (f2, s) => (f2, 0, { s with expected := r.expected })

/-- The communicator has bytes for the client (l_tcp_cmctr.cpp lines 449-466). -/
def St.recv (s : St) (l : List Byte) : St :=
  if s.waits ∧ l ≠ [] then
    let l := l.take size
    { s with cl := { s.cl with buf := put 0 l s.cl.buf }, result := l.length, waits := false }
  else s

/-- The connection is closed by the other side or no answer came in time (l_tcp_cmctr.cpp lines 454-458 and 468-475). -/
def St.lost (s : St) (code : Int) : St :=
  if s.waits then { s with result := code, link := .off, waits := false } else s

end Ptusa.MbClient
