import Verif.Time.Model

/-!
# Exchange with the server over TCP: `PAC/common/tcp_cmctr.{h,cpp}`, `PAC/linux/l_tcp_cmctr.{h,cpp}`

What the operating system returns from `select`, `accept`, `recv`, `send`, `socket`, `bind`, `listen`
is a parameter. Logging and the statistics of `sendall` / `recvtimeout` are left out. The asynchronous
clients (`clients`) are not modelled. The Windows variant is not modelled.
-/
namespace Ptusa.Tcp

abbrev Byte := BitVec 8

/-- The exchange buffer `buf` (`tcp_cmctr.h:135`) as a memory. -/
abbrev Buf := Nat → Byte

/-- `BUFSIZE` (`tcp_cmctr.h:84`). -/
def bufSize : Nat := 500 * 1024

/-- Writing the bytes `l` from offset `off`. -/
def put (b : Buf) (off : Nat) (l : List Byte) : Buf := fun i =>
  if off ≤ i ∧ i < off + l.length then l.getD (i - off) 0 else b i

/-- The `n` bytes of the buffer from offset `off`. -/
def get (b : Buf) (off n : Nat) : List Byte := (List.range n).map fun i => b (off + i)

/-- A service (`srv_proc`, `tcp_cmctr.h:35`): it gets the declared length and the memory from
`data`, returns a `long` and has written the listed bytes from `outdata` on. Its state is part of
the function. -/
abbrev Srv := Nat → (Nat → Byte) → BitVec 64 × List Byte

/-- `services` (`tcp_cmctr.h:127`): sixteen slots, some registered. -/
abbrev Services := Nat → Option Srv

/-- `reg_service` (`tcp_cmctr.cpp:31-44`): a slot that is taken keeps its service. A number from
sixteen on indexes past the array: undefined. -/
def reg (sv : Services) (id : Nat) (f : Srv) : Option Services :=
  if id < 16 then
    some (if (sv id).isNone then fun i => if i = id then some f else sv i else sv)
  else none

/-- `_ErrorAkn` (`tcp_cmctr.cpp:46-55`): the buffer and the number of bytes to send. -/
def errorAkn (b : Buf) (netId pidx error : Byte) : Buf × BitVec 32 :=
  (put b 0 [netId, 7, pidx, 0, 1, error], 6)

/-- `_AknData` (`tcp_cmctr.cpp:57-65`): `len` is an `unsigned long`, the count a `u_int`. -/
def aknData (b : Buf) (netId pidx : Byte) (len : BitVec 64) : Buf × BitVec 32 :=
  (put b 0 [netId, 12, pidx, (len >>> 8).truncate 8, len.truncate 8], len.truncate 32 + 5)

/-- `_AknOK` (`tcp_cmctr.cpp:67-75`). -/
def aknOk (b : Buf) (netId pidx : Byte) : Buf × BitVec 32 :=
  (put b 0 [netId, 12, pidx, 0, 0], 5)

/-- What the middle part of `do_echo` leaves: the buffer, the number of bytes to send and whether the
socket may be served again in the same pass. -/
structure Answer where
  buf   : Buf
  count : BitVec 32
  again : Bool

/-- A call of a service with `data = buf + 6` and `outdata = buf + off`: the memory afterwards and
the returned value cut to `int` (`res` is an `int`, `l_tcp_cmctr.cpp:773`). Writing past the buffer
is undefined. -/
def call (f : Srv) (b : Buf) (off : Nat) : Option (Buf × BitVec 32) :=
  let len := (b 4).toNat * 256 + (b 5).toNat
  let r := f len (fun i => b (6 + i))
  if off + r.2.length ≤ bufSize then some (put b off r.2, r.1.truncate 32) else none

/-- The middle part of `do_echo` (`l_tcp_cmctr.cpp:831-897`): `n` bytes have been received into `b`. -/
def answer (sv : Services) (b : Buf) (n : BitVec 32) : Option Answer :=
  let netId := b 0
  let pidx := b 3
  let serial : Option Srv :=
    if netId = 0x73 ∧ (b 1).toNat < 16 ∧ (b 2).toNat + (b 3).toNat ≠ 0 then sv (b 1).toNat else none
  match serial with
  | some f =>
    if b 2 = 1 then
      (call f b 5).map fun r =>
        let w := if r.2 = 0 then aknOk r.1 netId pidx else aknData r.1 netId pidx (r.2.signExtend 64)
        ⟨w.1, w.2, false⟩
    else
      let w := errorAkn b netId pidx 5
      some ⟨w.1, w.2, false⟩
  | none =>
    match (if (b 2).toNat + (b 3).toNat = 0 then sv 15 else none) with
    | some f =>
      (call f b 6).map fun r =>
        if (0 : Int) < r.2.toInt then
          ⟨put r.1 4 [r.2.extractLsb' 8 8, r.2.extractLsb' 0 8], r.2 + 6, true⟩
        else ⟨r.1, n, true⟩
    | none =>
      let w := errorAkn b netId pidx 3
      some ⟨w.1, w.2, false⟩

/-- What `recvtimeout` (`l_tcp_cmctr.cpp:648-755`) reports: a timeout, an error of `select` or `recv`,
the end of the connection or some bytes, at most `BUFSIZE`. -/
inductive Recv where
  | timeout | error | eof
  | data (l : List Byte)
  deriving DecidableEq, Repr

/-- What happens inside one pass of the loop of `sendall`. -/
inductive SendEv where
  | selTimeout | selError | sendError
  /-- `send` takes `n` of the remaining bytes. -/
  | sent (n : Nat)
  deriving DecidableEq, Repr

/-- `sendall` (`l_tcp_cmctr.cpp:560-632`): the returned code and the bytes that went out; `none`
when the listed events do not finish the loop. `res` is the value of the variable of that name. -/
def sendall : List SendEv → List Byte → Int → Option (Int × List Byte)
  | _, [], res => some (res, [])
  | [], _ :: _, _ => none
  | .selTimeout :: _, _ :: _, _ => some (-2, [])
  | .selError :: _, _ :: _, _ => some (-1, [])
  | .sendError :: _, _ :: _, _ => some (-3, [])
  | .sent n :: es, a :: l, _ =>
    (sendall es ((a :: l).drop n) 1).map fun r => (r.1, (a :: l).take n ++ r.2)

/-- One socket of the table `sst` (`socket_state`, `l_tcp_cmctr.h:30-44`). -/
structure Sock where
  fd        : Nat
  modbus    : Bool
  init      : Bool
  evaluated : Bool
  deriving DecidableEq, Repr

/-- How `do_echo` ends: the socket stays in the table, or is closed and erased. -/
inductive Ended where
  | kept (s : Sock)
  | closed
  deriving DecidableEq, Repr

/-- What is seen from outside of one exchange: how it ended and what was sent. -/
structure Echo where
  ended : Ended
  out   : List Byte

/-- `do_echo` (`l_tcp_cmctr.cpp:757-915`). `old` is what the buffer held before. Reading past the
buffer while sending is undefined, as is a list of events that does not finish `sendall`. -/
def doEcho (sv : Services) (old : Buf) (s : Sock) (r : Recv) (es : List SendEv) : Option Echo :=
  let s1 : Sock := { s with evaluated := true, init := false }
  -- `memset( buf, 0, BUFSIZE )`
  let b0 : Buf := fun i => if i < bufSize then 0 else old i
  match r with
  | .timeout => some (if s.init && s.modbus then ⟨.kept s1, []⟩ else ⟨.closed, []⟩)
  | .error => some ⟨.closed, []⟩
  | .eof => some ⟨.closed, []⟩
  | .data l =>
    (answer sv (put b0 0 l) (BitVec.ofNat 32 l.length)).bind fun a =>
      if 0 < a.count.toInt ∧ bufSize < a.count.toNat then none else
      let send := if 0 < a.count.toInt then get a.buf 0 a.count.toNat else []
      (sendall es send 0).map fun x =>
        if x.1 ≤ 0 then ⟨.closed, x.2⟩
        else ⟨.kept { s1 with evaluated := !a.again }, x.2⟩

/-! ### The table of sockets -/

/-- What the operating system answers while one socket of the table is handled. -/
inductive Ev where
  /-- `accept` fails. -/
  | acceptFail
  /-- `accept` returns a new descriptor which cannot be made non-blocking. -/
  | acceptBad (fd : Nat)
  /-- `accept` returns a new descriptor. -/
  | acceptOk (fd : Nat)
  /-- An exchange on a client socket ends. -/
  | echo (e : Ended)
  deriving DecidableEq, Repr

/-- The state inside the scan over the table (`l_tcp_cmctr.cpp:350-441`): the entries before index
`i`, the entries from `i` on, the set `rfds`, the descriptors closed and opened so far. -/
structure Scan where
  seen   : List Sock
  rest   : List Sock
  ready  : Nat → Bool
  opened : List Nat
  closed : List Nat
  /-- Descriptors of the client sockets served so far, latest first. -/
  served : List Nat

/-- `master_socket` and `modbus_socket` (`l_tcp_cmctr.h:61-63`). -/
structure Listen where
  master : Nat
  modbus : Nat
  deriving DecidableEq, Repr

/-- One pass of the `for` loop (`l_tcp_cmctr.cpp:350-441`) for the entry at index `i`; the index is
moved on afterwards. An event that does not fit the entry leaves the state as it is. -/
def scanStep (m : Listen) (c : Scan) (ev : Ev) : Scan :=
  match c.rest with
  | [] => c
  | s :: rest =>
    if c.ready s.fd = false then { c with seen := c.seen ++ [s], rest := rest } else
    if s.fd = m.master ∨ s.fd = m.modbus then
      match ev with
      | .acceptFail => { c with seen := c.seen ++ [s], rest := rest }
      | .acceptBad fd =>
        { c with seen := c.seen ++ [s], rest := rest, opened := fd :: c.opened, closed := fd :: c.closed }
      | .acceptOk fd =>
        { c with seen := c.seen ++ [s]
                 rest := rest ++ [⟨fd, decide (s.fd = m.modbus), true, false⟩]
                 ready := fun x => if x = fd then true else c.ready x
                 opened := fd :: c.opened }
      | .echo _ => c
    else
      match ev with
      | .echo (.kept s') =>
        { c with seen := c.seen ++ [{ s' with fd := s.fd, modbus := s.modbus }], rest := rest
                 ready := fun x => if x = s.fd then false else c.ready x
                 served := s.fd :: c.served }
      | .echo .closed =>
        -- the entry is erased, the one after it takes its index, and the index is moved on
        { c with seen := c.seen ++ rest.take 1, rest := rest.drop 1
                 ready := fun x => if x = s.fd then false else c.ready x
                 closed := s.fd :: c.closed
                 served := s.fd :: c.served }
      | _ => c

/-- The sockets `select` is asked about (`l_tcp_cmctr.cpp:309-323`): those not yet served. -/
def asked (t : List Sock) (fd : Nat) : Bool := t.any fun s => s.fd == fd && !s.evaluated

/-- One cycle of the service loop (`l_tcp_cmctr.cpp:300-441`): `select` marks some of the sockets it
was asked about as ready, the scan meets the events `es`. `none` for `select` stands for no event or an
error: the cycle does nothing. -/
def cycle (m : Listen) (c : Scan) (sel : Option (Nat → Bool)) (es : List Ev) : Scan :=
  match sel with
  | none => c
  | some r =>
    let t := c.seen ++ c.rest
    es.foldl (scanStep m) { c with seen := [], rest := t, ready := fun fd => asked t fd && r fd }

/-- `evaluate()` (`l_tcp_cmctr.cpp:296-478`) with the network initialised: at most `max_cycles` = 10
cycles (`tcp_cmctr.cpp:23`), afterwards every entry may be served again. -/
def evaluate (m : Listen) (c : Scan) (cs : List (Option (Nat → Bool) × List Ev)) : Scan :=
  let c1 := (cs.take 10).foldl (fun c x => cycle m c x.1 x.2) c
  { c1 with seen := (c1.seen ++ c1.rest).map fun s => { s with evaluated := false }, rest := [] }

/-! ### Opening the listening sockets -/

/-- What the operating system answers to the calls of `net_init`: `none` for a descriptor that could
not be created. -/
structure NetEnv where
  master       : Option Nat
  setsockoptOk : Bool
  bindOk       : Bool
  listenOk     : Bool
  modbus       : Option Nat
  bindModbusOk : Bool
  listenModbusOk : Bool
  deriving DecidableEq, Repr

/-- The network part of the communicator: descriptors open, table, `netOK`. -/
structure Net where
  opened : List Nat
  table  : List Nat
  ok     : Bool
  deriving DecidableEq, Repr

/-- `net_init()` (`l_tcp_cmctr.cpp:57-252`): only the descriptors in the table are kept. -/
def netInit (n : Net) (e : NetEnv) : Net :=
  match e.master with
  | none => n
  | some a =>
    if !e.setsockoptOk || !e.bindOk || !e.listenOk then n   -- opened and closed again
    else
      let n1 : Net := { n with opened := a :: n.opened, table := n.table ++ [a] }
      match e.modbus with
      | none => n1
      | some b =>
        if !e.bindModbusOk || !e.listenModbusOk then
          { n1 with opened := b :: n.opened }                 -- `close( master_socket )`
        else { n1 with opened := b :: n1.opened, table := n1.table ++ [b], ok := true }

/-! ### Supervision of the connection -/

/-- `glob_last_transfer_time`, `glob_cmctr_ok` (`tcp_cmctr.h:133`, `l_tcp_cmctr.h:75`) and whether the
alarm is set at the manager of critical errors. -/
structure Watch where
  last  : BitVec 64
  ok    : Bool
  alarm : Bool
  deriving DecidableEq, Repr

/-- The constructor (`tcp_cmctr.cpp:24`, `l_tcp_cmctr.cpp:41`). -/
def Watch.start (now : BitVec 64) : Watch := ⟨now, true, false⟩

/-- What the supervision sees. -/
inductive WEv where
  /-- `evaluate()` is called (`l_tcp_cmctr.cpp:271-293`). -/
  | eval (now : BitVec 64)
  /-- A client socket (of the server or of a Modbus device) was found ready, whatever came of the
  exchange (`l_tcp_cmctr.cpp:437-438`). -/
  | client (modbus exchanged : Bool) (now : BitVec 64)
  deriving DecidableEq, Repr

def Watch.step (w : Watch) : WEv → Watch
  | .eval now =>
    if (5000 : BitVec 64) < Time.deltaMs now w.last then
      if w.ok then { w with ok := false, alarm := true } else w
    else if !w.ok then { w with ok := true, alarm := false } else w
  | .client _ _ now => { w with last := now }

def Watch.run (w : Watch) (h : List WEv) : Watch := h.foldl Watch.step w

end Ptusa.Tcp
