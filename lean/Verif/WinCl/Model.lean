/-!
# The client of a connection on Windows

Model of `win_tcp_client` (PAC/win/w_tcp_client.cpp): `Communicate` (lines 5-80), `InitLib` (94-110), `Connect` (121-221), `AsyncConnect`
(223-350), `Disconnect` (352-359), the destructor (361-367), `AsyncSend` (395-420), `AsyncRecive` (422-449), `get_async_result` (452-460), with
`checkConnection` of PAC/common/tcp_client.cpp (67-107), as far as it concerns the sockets.

What the operating system answers is a parameter of each call.  A new socket gets a number that is not in use.  Whether the pause between two attempts is over, and
whether a connection takes too long, is part of the answers too.  Left out: the contents of the buffer, the log, the table of the communicator.
-/
namespace Ptusa.WinCl

/-- `connectedstate` (tcp_client.h 22-27). -/
inductive Link where
  | off | busy | on
  deriving DecidableEq, Repr

/-- The client: `is_initialized`, `socket_number`, `connectedstate`; the sockets of this client that are open; for each frame handed
to `send`, whether the connection was made by then. -/
structure St where
  lib : Bool := false
  sock : Nat := 0
  link : Link := .off
  opened : List Nat := []
  frames : List Bool := []
  deriving DecidableEq, Repr

/-- `select` for a connection in progress: not yet, an error, made, made but `SO_ERROR` is set. -/
inductive Sel where
  | wait | fail | up | refused
  deriving DecidableEq, Repr

/-- What receiving comes to: nothing in time, an error, closed by the other side, data. -/
inductive Recv where
  | silent | err | closed | data (n : Nat)
  deriving DecidableEq, Repr

/-- The answers of the operating system during a call. -/
structure Os where
  /-- `WSAStartup` succeeds -/
  lib : Bool := true
  /-- number of a new socket, or no socket -/
  fd : Option Nat := none
  /-- `setsockopt` succeeds -/
  opts : Bool := true
  /-- `ioctlsocket` succeeds -/
  nonblock : Bool := true
  sel : Sel := .up
  /-- more than `timeout` has passed since the connection was begun -/
  late : Bool := false
  /-- the pause after the last attempt is over -/
  due : Bool := true
  send : Bool := true
  recv : Recv := .silent
  /-- data have been waiting long enough (lines 428-440) -/
  ripe : Bool := true
  deriving DecidableEq, Repr

/-- `closesocket`. -/
def St.close (s : St) (fd : Nat) : St := { s with opened := s.opened.filter (· != fd) }

/-- `Disconnect` (lines 352-359). -/
def St.disconnect (s : St) : St := { s.close s.sock with sock := 0, link := .off }

/-- The beginning that `Connect` (121-170) and `AsyncConnect` (233-274) share: a socket with its options, or `false`.  When an
option cannot be set the socket stays open. -/
def St.open (s : St) (o : Os) : St × Bool :=
  match o.fd with
  | none => (s, false)
  | some fd =>
    if fd ∈ s.opened then (s, false)
    else
      let t : St := { s with sock := fd, opened := fd :: s.opened }
      if o.opts = false then (t, false)
      else if o.nonblock = false then ({ t.close fd with sock := 0 }, false)
      else (t, true)

/-- `Connect` (lines 121-221). -/
def St.connect (s : St) (o : Os) : St × Bool :=
  if s.link ≠ .off then (s, true)
  else
    match s.open o with
    | (t, false) => (t, false)
    | (t, true) =>
      match o.sel with
      | .up => ({ t with link := .on }, true)
      | _ => ({ t.close t.sock with sock := 0 }, false)

/-- The second half of `AsyncConnect` (lines 288-348). -/
def St.connecting (s : St) (o : Os) : St × Link :=
  match o.sel with
  | .wait =>
    if o.late then ({ s.close s.sock with sock := 0, link := .off }, .off)
    else (s, .busy)
  | .fail => ({ s.close s.sock with sock := 0, link := .off }, .off)
  | .refused => ({ s.close s.sock with sock := 0, link := .off }, .off)
  | .up => ({ s with link := .on }, .on)

/-- `AsyncConnect` (lines 223-350). -/
def St.asyncConnect (s : St) (o : Os) : St × Link :=
  match s.link with
  | .on => (s, .on)
  | .busy => s.connecting o
  | .off =>
    match s.open o with
    | (t, false) => (t, .off)
    | (t, true) => ({ t with link := .busy } : St).connecting { o with late := false }

/-- `checkConnection` (tcp_client.cpp 67-107). -/
def St.check (s : St) (o : Os) : St × Bool :=
  if s.link = .on then (s, true)
  else if o.due = true ∨ s.link = .busy then
    let r := s.asyncConnect o
    (r.1, decide (r.2 = .on))
  else (s, false)

/-- `send`: a frame is handed over. -/
def St.frame (s : St) : St := { s with frames := decide (s.link = .on) :: s.frames }

/-- `Communicate` (lines 5-80) and its result. -/
def St.communicate (s : St) (o : Os) : St × Nat :=
  if s.lib = false ∧ o.lib = false then (s, 0)
  else
    match ({ s with lib := true } : St).connect o with
    | (t, false) => (t, 0)
    | (t, true) =>
      if o.send = false then (t.frame.disconnect, 0)
      else
        match o.recv with
        | .data (n + 1) => (t.frame, n + 1)
        | _ => (t.frame.disconnect, 0)

/-- `AsyncSend` (lines 395-420). -/
def St.asyncSend (s : St) (o : Os) : St :=
  match s.check o with
  | (t, false) => t
  | (t, true) => if o.send then t.frame else t.frame.disconnect

/-- `AsyncRecive` (lines 422-449) and its result: a connection that was closed by the other side gives 0 and is kept. -/
def St.asyncRecive (s : St) (o : Os) : St × Nat :=
  match s.check o with
  | (t, false) => (t, 0)
  | (t, true) =>
    if o.ripe then
      match o.recv with
      | .err => (t.disconnect, 0)
      | .data n => (t, n)
      | _ => (t, 0)
    else (t, 0)

/-- `get_async_result` (lines 452-460). -/
def St.poll (s : St) (o : Os) : St := if s.link = .busy then s.asyncSend o else s

/-- The destructor (lines 361-367). -/
def St.destroy (s : St) : St := if s.link ≠ .off then s.disconnect else s

/-- Calls of the client. -/
inductive Ev where
  | communicate (o : Os)
  | send (o : Os)
  | recive (o : Os)
  | poll (o : Os)
  | disconnect
  deriving DecidableEq, Repr

/-- One call. -/
def St.step (s : St) : Ev → St
  | .communicate o => (s.communicate o).1
  | .send o => s.asyncSend o
  | .recive o => (s.asyncRecive o).1
  | .poll o => s.poll o
  | .disconnect => s.disconnect

/-- A history. -/
def St.run (s : St) (h : List Ev) : St := h.foldl St.step s

end Ptusa.WinCl
