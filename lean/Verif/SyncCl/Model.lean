import Verif.MbClient.Model

/-!
# The connection of the Modbus client when it waits for answers

Model of `linux_tcp_client::Communicate`, `Connect` and `Disconnect` (PAC/linux/l_tcp_client.cpp lines 10-38, 53-136,
263-269) with `sendall` and `recvtimeout` (PAC/linux/l_tcp_cmctr.cpp lines 498-570, 610-760), and of the check that the
functions of `modbus_client` make (PAC/common/modbus_client.cpp lines 23-210): only the number of bytes received.

The device is a parameter: every event says what it sends back for the request.  TCP is taken as it is defined: bytes arrive in
order, `recv` takes what has arrived at this moment, the rest stays for the next call.  What the requests look like and how the
values are taken out of the buffer is in the model `MbClient`.  The messages of the log are left out.
-/
namespace Ptusa.SyncCl

open MbClient (Byte Req)

/-- `connectedstate`, and the bytes that the device has sent, or is sending, on this connection and that were not read yet. -/
structure Conn where
  connected : Bool := false
  queue : List Byte := []
  deriving DecidableEq, Repr

/-- How `recvtimeout` ends (l_tcp_cmctr.cpp lines 681-760): without data or with an error (negative), with the connection closed by
the device (0), or with data, when so many of the bytes have arrived. -/
inductive Got where
  | failed
  | closed
  | arrived (k : Nat)
  deriving DecidableEq, Repr

/-- One call of a function of `modbus_client`: the request, whether `Connect` and `sendall` succeed, what the device sends back,
how the receiving ends. -/
structure Ev where
  req : Req
  connects : Bool := true
  sends : Bool := true
  answer : List Byte
  got : Got

/-- `buff_size` (modbus_client.cpp line 11). -/
def buffSize : Nat := 256

/-- `Communicate` (l_tcp_client.cpp lines 10-38): the bytes put into the buffer; their number is the result. -/
def communicate (s : Conn) (e : Ev) : List Byte × Conn :=
  if s.connected = false ∧ e.connects = false then ([], s)
  else
    let q := if s.connected then s.queue else []
    if e.sends = false then ([], ⟨false, []⟩)
    else
      match e.got with
      | .failed => ([], ⟨false, []⟩)
      | .closed => ([], ⟨true, []⟩)
      | .arrived k =>
        let n := min (min k buffSize) (q ++ e.answer).length
        ((q ++ e.answer).take n, ⟨true, (q ++ e.answer).drop n⟩)

/-- The check of the function (modbus_client.cpp lines 38-42, 64-68, 90-94, 116-120, 143-147, 172-176, 201-205): it returns 1 with
the bytes as the answer, or 0. -/
def call (s : Conn) (e : Ev) : Option (List Byte) × Conn :=
  let r := communicate s e
  (if BitVec.ofNat 32 r.1.length = e.req.expected then some r.1 else none, r.2)

/-- A history of calls: what each returned, and the connection after them. -/
def run (s : Conn) : List Ev → List (Option (List Byte)) × Conn
  | [] => ([], s)
  | e :: es => let r := call s e; let t := run r.2 es; (r.1 :: t.1, t.2)

end Ptusa.SyncCl
