/-!
# The sockets of the server on Windows

Model of `tcp_communicator_win` (PAC/win/w_tcp_cmctr.cpp): `net_init` (lines 78-246), `killsockets` and `net_terminate` (60-75, 248-252), the
service loop of `evaluate` (287-469) and what `do_echo` does with its socket (494-656), built without `MODBUS`.

The answers of the operating system are parameters.  A new socket gets a number that is not in use.  `accept` is called on a blocking socket
(`FIONBIO` is set to 0, line 111): with nobody waiting it never returns, which is the outcome `none`.  Left out: the contents of frames (see `Tcp`), the supervision of the
link, the asynchronous clients, at most ten rounds in one call (any number here).
-/
namespace Ptusa.WinCm

/-- An entry of `sst`: the socket and `evaluated`. -/
structure Ent where
  sock : Nat
  seen : Bool := false
  deriving DecidableEq, Repr

/-- The communicator: `netOK`, `master_socket`, `sst`; the sockets that are open. -/
structure St where
  ok : Bool := false
  master : Nat := 0
  table : List Ent := []
  opened : List Nat := []
  deriving DecidableEq, Repr

/-- Answers while the network is set up. -/
structure InitOs where
  lib : Bool := true
  fd : Option Nat := none
  mode : Bool := true
  bind : Bool := true
  listen : Bool := true
  deriving DecidableEq, Repr

/-- `net_init` (lines 78-246): the entry is added before `bind` and `listen`, whose failure closes the socket and leaves the entry. -/
def St.init (s : St) (o : InitOs) : St :=
  if o.lib = false then s
  else
    match o.fd with
    | none => s
    | some fd =>
      if fd ∈ s.opened then s
      else if o.mode = false then { s with master := fd }
      else if o.bind = false ∨ o.listen = false then { s with master := fd, table := s.table ++ [⟨fd, false⟩] }
      else { ok := true, master := fd, table := s.table ++ [⟨fd, false⟩], opened := fd :: s.opened }

/-- `net_terminate` with `killsockets` (lines 60-75, 248-252). -/
def St.terminate (s : St) : St :=
  { s with ok := false, table := [], opened := s.opened.filter fun n => decide (n ∉ s.table.map Ent.sock) }

/-- What comes of an exchange (`do_echo`): the connection is dropped, or kept; then the socket may be served again in the same call or not. -/
inductive Echo where
  | gone | kept (again : Bool)
  deriving DecidableEq, Repr

/-- Answers in one round of the service loop: whether `select` fails, the sockets with data, those waiting for `accept` (`none`: taken
but not usable), the outcome of each exchange. -/
structure Round where
  fail : Bool := false
  ready : List Nat := []
  waiting : List (Option Nat) := []
  echo : Nat → Echo := fun _ => .kept false

/-- Walking along the table: the entries passed, those added, the set `rfds`, those waiting, the open sockets. -/
structure Acc where
  kept : List Ent
  added : List Ent
  rf : List Nat
  waiting : List (Option Nat)
  opened : List Nat

/-- One entry (lines 337-422); also whether the next one is jumped over, as `do_echo` takes its entry out of the table while `i` goes on. -/
def visit (m : Nat) (echo : Nat → Echo) (a : Acc) (e : Ent) : Option (Acc × Bool) :=
  if e.sock ∉ a.rf then some ({ a with kept := a.kept ++ [e] }, false)
  else if e.sock = m then
    match a.waiting with
    | [] => none
    | none :: w => some ({ a with kept := a.kept ++ [e], waiting := w }, false)
    | some fd :: w =>
      if fd ∈ a.opened then some ({ a with kept := a.kept ++ [e], waiting := w }, false)
      else some ({ a with kept := a.kept ++ [e], waiting := w, added := a.added ++ [⟨fd, false⟩],
                          rf := fd :: a.rf, opened := fd :: a.opened }, false)
  else
    match echo e.sock with
    | .gone => some ({ a with rf := a.rf.filter (· != e.sock), opened := a.opened.filter (· != e.sock) }, true)
    | .kept again => some ({ a with kept := a.kept ++ [⟨e.sock, !again⟩], rf := a.rf.filter (· != e.sock) }, false)

/-- The loop of lines 335-423 over a part of the table. -/
def walk (m : Nat) (echo : Nat → Echo) : List Ent → Bool → Acc → Option (Acc × Bool)
  | [], k, a => some (a, k)
  | e :: es, true, a => walk m echo es false { a with kept := a.kept ++ [e] }
  | e :: es, false, a =>
    match visit m echo a e with
    | none => none
    | some (b, k) => walk m echo es k b

/-- The set that `select` leaves (lines 301-320). -/
def St.rfds (s : St) (r : Round) : List Nat :=
  ((s.table.filter fun e => !e.seen).map Ent.sock).filter fun n =>
    if n = s.master then decide (r.waiting ≠ []) else decide (n ∈ r.ready)

/-- A round over the table: the old entries, then those added meanwhile. -/
def St.scan (s : St) (r : Round) : Option St :=
  match walk s.master r.echo s.table false ⟨[], [], s.rfds r, r.waiting, s.opened⟩ with
  | none => none
  | some (a, k) =>
    match walk s.master r.echo a.added k { a with added := [] } with
    | none => none
    | some (b, _) => some { s with table := b.kept ++ b.added, opened := b.opened }

/-- `select` fails: by itself, or because a socket of the set is not open. -/
def St.selectFails (s : St) (r : Round) : Bool :=
  r.fail || s.table.any fun e => !e.seen && decide (e.sock ∉ s.opened)

/-- The rounds of a call (lines 295-469) and its result. -/
def St.rounds : St → List Round → Option (St × Int)
  | s, [] => some ({ s with table := s.table.map fun e => { e with seen := false } }, 0)
  | s, r :: rs =>
    if s.selectFails r then some (s.terminate, -1)
    else
      match s.scan r with
      | none => none
      | some t => t.rounds rs

/-- `evaluate` (lines 287-469). -/
def St.evaluate (s : St) (o : InitOs) (rs : List Round) : Option (St × Int) :=
  let t := if s.ok then s else s.init o
  if t.ok = false then some (t, -100) else t.rounds rs

/-- A history: the constructor (line 31) sets the network up, then calls follow. -/
def run (o : InitOs) (h : List (InitOs × List Round)) : Option St :=
  h.foldl (fun s e => s.bind fun t => (t.evaluate e.1 e.2).map Prod.fst) (some (({} : St).init o))

end Ptusa.WinCm
