/-!
# Connections to devices: `PAC/common/tcp_client.cpp`, `PAC/linux/l_tcp_client.cpp`, `PAC/linux/l_tcp_cmctr.cpp`

The clients which do not wait (`AsyncSend`, `AsyncRecive`), the table of the clients which expect an answer, and the descriptors of the
process, which the clients, the server and the standard streams share. What is written in the frames is modelled in `MbClient`, the server
in `Tcp`.

Simplifications. The clock does not overflow. Client `k` talks to device `k`. What the operating system answers is a parameter; a new
descriptor is one which is not in use. The functions which wait (`Communicate`) and the destructor are left out.
-/
namespace Ptusa.TcpCl

/-- What a descriptor refers to: a standard stream, a socket of the server, a connection to a device. -/
inductive Obj
  | std | srv | dev (k : Nat)
  deriving DecidableEq, Repr

/-- `ASYNCCONNECTSTATE` (tcp_client.h lines 22-27). -/
inductive Link
  | off | busy | on
  deriving DecidableEq, Repr

/-- `ASYNCRESULT` (tcp_client.h lines 14-20) or the length of an answer. -/
inductive Res
  | free | busy | timeout | error | got (n : Nat)
  deriving DecidableEq, Repr

/-- A client: `timeout`, `socket_number`, `connectedstate`, `async_result`, `async_startconnnect`, `async_last_connect_try`,
`reconnectTimeout`, `async_queued`, `asyncReciveTime`, `newDataIsAvailable`. -/
structure Cl where
  T : Nat
  sock : Nat := 0
  link : Link := .off
  result : Res := .free
  started : Nat := 0
  tried : Nat := 0
  pause : Nat
  queued : Nat := 0
  seen : Nat := 0
  fresh : Bool := false
  deriving Repr

/-- The constructors (tcp_client.cpp lines 14-34, l_tcp_client.cpp lines 40-52) at time `t`. `asyncReciveTime` and `newDataIsAvailable` are
not set there. -/
def Cl.new (T t seen : Nat) (fresh : Bool) : Cl := { T := T, started := t, tried := t, pause := T * 5, seen := seen, fresh := fresh }

/-- The process: its descriptors, the clients, the table of the clients which expect an answer (socket and client), and what happened so far:
the frames (client, time, what they were written to), the readings (client, what was read), the attempts to connect (client, time). -/
structure World where
  fds : Nat → Option Obj
  cl : Nat → Cl
  map : List (Nat × Nat) := []
  out : List (Nat × Nat × Obj) := []
  inp : List (Nat × Obj) := []
  att : List (Nat × Nat) := []

def World.setFd (w : World) (fd : Nat) (o : Option Obj) : World := { w with fds := fun i => if i = fd then o else w.fds i }

def World.setCl (w : World) (k : Nat) (c : Cl) : World := { w with cl := fun i => if i = k then c else w.cl i }

/-- `Disconnect` (l_tcp_client.cpp lines 263-269). -/
def World.disconnect (w : World) (k : Nat) : World :=
  (w.setFd (w.cl k).sock none).setCl k { w.cl k with sock := 0, link := .off }

/-- What a new connection comes to: no descriptor, an option cannot be set, `connect` fails at once, `connect` goes on. -/
inductive Start
  | noSocket | bad | refused | progress
  deriving DecidableEq, Repr

/-- What `select` and `getsockopt` say about a connection: nothing yet, an error, it is made. -/
inductive Sel
  | wait | fail | up
  deriving DecidableEq, Repr

/-- What the network does during a call: the descriptor given to a new socket, the beginning of a connection, its state, whether the frame
could be sent. -/
structure Net where
  fd : Nat
  start : Start
  sel : Sel
  sent : Bool
  deriving Repr

/-- The second part of `AsyncConnect` (l_tcp_client.cpp lines 196-257). -/
def World.connecting (w : World) (k now : Nat) (net : Net) : World × Link :=
  match net.sel with
  | .wait => if (w.cl k).T < now - (w.cl k).started then (w.disconnect k, .off) else (w, .busy)
  | .fail => (w.disconnect k, .off)
  | .up => (w.setCl k { w.cl k with link := .on }, .on)

/-- `AsyncConnect` (l_tcp_client.cpp lines 139-260) of a client which is not connected. A connection which fails at once is closed, but the
function goes on to its end, which sets `ACS_CONNECTED`. The number -1 which stays when no socket could be made is not kept: it is not used
before the next attempt. -/
def World.connect (w : World) (k now : Nat) (net : Net) : World × Link :=
  match (w.cl k).link with
  | .on => (w, .on)
  | .busy => w.connecting k now net
  | .off =>
    if w.fds net.fd = none then
      match net.start with
      | .noSocket => (w, .off)
      | .bad => (w.setCl k { w.cl k with sock := 0 }, .off)
      | .refused =>
        let w := ((w.setFd net.fd (some (.dev k))).setCl k { w.cl k with sock := net.fd }).disconnect k
        (w.setCl k { w.cl k with link := .on }, .on)
      | .progress =>
        ((w.setFd net.fd (some (.dev k))).setCl k { w.cl k with sock := net.fd, started := now, link := .busy }).connecting k now net
    else (w, .off)

/-- The time of the attempt (tcp_client.cpp lines 73-76). -/
def World.attempt (w : World) (k now : Nat) : World :=
  if (w.cl k).link = .off then { w.setCl k { w.cl k with tried := now } with att := (k, now) :: w.att } else w

/-- What `checkConnection` does after `AsyncConnect` (tcp_client.cpp lines 79-97): whether the client is connected. The doubling of the pause
is written as an expression whose first branch has no effect (line 84). -/
def World.settle (k : Nat) : World × Link → World × Bool
  | (w, .off) => (w.setCl k { w.cl k with
      result := .error, pause := if (w.cl k).T * 30 < (w.cl k).pause then (w.cl k).pause else (w.cl k).pause * 2 }, false)
  | (w, .busy) => (w, false)
  | (w, .on) => (w.setCl k { w.cl k with pause := (w.cl k).T * 5 }, true)

/-- `checkConnection` (tcp_client.cpp lines 67-107). -/
def World.check (w : World) (k now : Nat) (net : Net) : World × Bool :=
  if (w.cl k).link = .on then (w, true)
  else if (w.cl k).pause < now - (w.cl k).tried ∨ (w.cl k).link = .busy then
    World.settle k ((w.attempt k now).connect k now net)
  else (w.setCl k { w.cl k with result := .error }, false)

/-- `sendall` on a descriptor (l_tcp_cmctr.cpp lines 498-609): it fails for one which is closed or no socket. -/
def World.write (w : World) (k now : Nat) (sent : Bool) : World × Bool :=
  match w.fds (w.cl k).sock with
  | none => (w, false)
  | some .std => (w, false)
  | some o => ({ w with out := (k, now, o) :: w.out }, sent)

/-- `add_async_client` (tcp_cmctr.cpp lines 150-155): the table is a map by socket. -/
def World.queue (w : World) (k now : Nat) : World :=
  { w.setCl k { w.cl k with result := .busy, queued := now } with
    map := ((w.cl k).sock, k) :: w.map.filter fun e => e.1 != (w.cl k).sock }

/-- `AsyncSend` (l_tcp_client.cpp lines 271-295, tcp_client.cpp lines 114-120). -/
def World.send (w : World) (k now : Nat) (net : Net) : World :=
  match (w.setCl k { w.cl k with result := .busy }).check k now net with
  | (w, false) => w
  | (w, true) =>
    match w.write k now net.sent with
    | (w, false) => (w.setCl k { w.cl k with result := .error }).disconnect k
    | (w, true) => w.queue k now

/-- `get_async_result` (l_tcp_client.cpp lines 327-334). -/
def World.poll (w : World) (k now : Nat) (net : Net) : World := if (w.cl k).link = .busy then w.send k now net else w

/-- A function of `modbus_client` which does not wait (modbus_client.cpp lines 403-747): while the client is busy nothing is done, an answer
which is expected (`take`) is handed out, otherwise a request is sent. -/
def World.call (w : World) (k now : Nat) (n1 n2 : Net) (take : Bool) : World :=
  let w := w.poll k now n1
  match (w.cl k).result with
  | .busy => w
  | .got n => if take then w.setCl k { w.cl k with result := .free } else w.send k now n2
  | _ => w.send k now n2

/-- What a reading comes to: an error, closed by the other side, so many bytes. -/
inductive Rd
  | fail | closed | got (n : Nat)
  deriving DecidableEq, Repr

/-- `recvtimeout` on the descriptor of a client (l_tcp_cmctr.cpp lines 611-719). -/
def World.read (w : World) (k : Nat) (r : Rd) : World × Rd :=
  match w.fds (w.cl k).sock with
  | none => (w, .fail)
  | some .std => (w, .fail)
  | some o => match r with
    | .got n => ({ w with inp := (k, o) :: w.inp }, .got n)
    | r => (w, r)

/-- `AsyncRecive` (l_tcp_client.cpp lines 297-325) and its answer, the number of bytes. `avail` is the answer of `checkBuff`. -/
def World.receive (w : World) (k now : Nat) (net : Net) (avail : Bool) (r : Rd) : World × Nat :=
  match (w.setCl k { w.cl k with result := .busy }).check k now net with
  | (w, false) => (w, 0)
  | (w, true) =>
    let c := w.cl k
    let w := if avail && !c.fresh then w.setCl k { c with seen := now, fresh := true } else w
    let c := w.cl k
    if c.T * 2 ≤ now - c.seen ∧ c.fresh = true then
      match (w.setCl k { c with fresh := false }).read k r with
      | (w, .fail) => ((w.setCl k { w.cl k with result := .error }).disconnect k, 0)
      | (w, .closed) => (w, 0)
      | (w, .got n) => (w, n)
    else (w, 0)

/-- One entry of the table in `evaluate` (l_tcp_cmctr.cpp lines 446-476): the new state and whether the entry is removed. -/
def World.visit (w : World) (k now : Nat) (ready : Nat → Bool) (rd : Nat → Rd) : World × Bool :=
  if ready (w.cl k).sock then
    match w.read k (rd k) with
    | (w, .got n) => (w.setCl k { w.cl k with result := .got n }, true)
    | (w, _) => let w := w.disconnect k; (w.setCl k { w.cl k with result := .error }, true)
  else if (w.cl k).T * 2 < now - (w.cl k).queued then
    let w := w.disconnect k; (w.setCl k { w.cl k with result := .timeout }, true)
  else (w, false)

/-- The loop over the table (l_tcp_cmctr.cpp lines 443-486): the entries which stay. -/
def World.visits (w : World) (now : Nat) (ready : Nat → Bool) (rd : Nat → Rd) : List (Nat × Nat) → World × List (Nat × Nat)
  | [] => (w, [])
  | e :: m =>
    let (w, gone) := w.visit e.2 now ready rd
    let (w, m) := w.visits now ready rd m
    (w, if gone then m else e :: m)

/-- `evaluate` after `select` has reported something (l_tcp_cmctr.cpp lines 342-486). When it reports nothing, or fails, the table is not
looked at. -/
def World.pass (w : World) (now : Nat) (ready : Nat → Bool) (rd : Nat → Rd) : World :=
  let (w, m) := w.visits now ready rd w.map
  { w with map := m }

/-- What happens: a call of a modbus client, of a client of scales, a pass of the communicator, the server opens or closes one of its
sockets. -/
inductive Ev
  | call (k : Nat) (n1 n2 : Net) (take : Bool)
  | receive (k : Nat) (net : Net) (avail : Bool) (r : Rd)
  | pass (ready : Nat → Bool) (rd : Nat → Rd)
  | accept (fd : Nat)
  | drop (fd : Nat)

/-- One event. `mb` says which clients are those of modbus, the others are those of scales. -/
def World.event (mb : Nat → Bool) (w : World) (now : Nat) : Ev → World
  | .call k n1 n2 take => if mb k then w.call k now n1 n2 take else w
  | .receive k net avail r => if mb k then w else (w.receive k now net avail r).1
  | .pass ready rd => w.pass now ready rd
  | .accept fd => if w.fds fd = none then w.setFd fd (some .srv) else w
  | .drop fd => if w.fds fd = some .srv then w.setFd fd none else w

/-- Events with their times. -/
def World.run (mb : Nat → Bool) (w : World) : List (Nat × Ev) → World
  | [] => w
  | e :: h => (w.event mb e.1 e.2).run mb h

/-- The process at time `t` after its start: three standard streams and clients which are not connected. `s` is what is in the memory of
their last two fields. -/
def World.init (T : Nat → Nat) (t : Nat) (s : Nat → Nat × Bool) : World where
  fds := fun i => if i < 3 then some .std else none
  cl := fun k => .new (T k) t (s k).1 (s k).2

end Ptusa.TcpCl
