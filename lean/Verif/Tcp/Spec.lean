import Verif.Tcp.Model

/-!
# What a client of the controller expects from the TCP exchange
-/
namespace Ptusa.Tcp

/-- A request of the server: `'s'`, number of the service, 1, running number, length (high byte
first), that many bytes. -/
def request (srv idx : Byte) (body : List Byte) : List Byte :=
  [0x73, srv, 1, idx, BitVec.ofNat 8 (body.length / 256), BitVec.ofNat 8 (body.length % 256)] ++ body

/-- A reply as the other side reads it. -/
structure Reply where
  id   : Byte
  kind : Byte
  idx  : Byte
  data : List Byte
  deriving DecidableEq, Repr

/-- Reading one reply: identifier, kind, running number, length (high byte first), that many bytes
and nothing else. -/
def parse : List Byte → Option Reply
  | i :: k :: x :: hi :: lo :: data =>
    if data.length = hi.toNat * 256 + lo.toNat then some ⟨i, k, x, data⟩ else none
  | _ => none

/-- The bytes a service sees: the body of the request followed by zeros. -/
def zeros (body : List Byte) : Nat → Byte := fun i => body.getD i 0

/-- A service looks at nothing but the first `n` bytes it is given. -/
def Srv.Reads (f : Srv) (n : Nat) : Prop :=
  ∀ len (m m' : Nat → Byte), (∀ i, i < n → m i = m' i) → f len m = f len m'

/-- Every byte was accepted by the network: a list of events without failures. -/
def SendEv.ok : SendEv → Bool
  | .sent _ => true
  | _ => false

/-- The client sockets of a table: all but the two listening ones. -/
def clients (m : Listen) (t : List Sock) : List Nat :=
  (t.map (·.fd)).filter fun x => x != m.master && x != m.modbus

/-- The operating system hands out a descriptor that is not one of the listening sockets. -/
def Ev.fresh (m : Listen) : Ev → Prop
  | .acceptOk fd => fd ≠ m.master ∧ fd ≠ m.modbus
  | _ => True

end Ptusa.Tcp
