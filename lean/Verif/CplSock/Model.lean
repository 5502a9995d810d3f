/-!
# Sockets of the bus couplers

Model of the connections of the I/O manager: `uni_io_manager::net_init`, `e_communicate`, `disconnect`
(PAC/common/uni_bus_coupler_io.cpp lines 15-236, 509-591, 888-910), the command that switches a coupler off and on
(PAC/common/PAC_info.cpp lines 288-312), and the descriptors of the process, given out by the system.

Simplifications: Linux; what is sent and received is in the model `Coupler`, here an exchange only succeeds or not; the delay
between attempts is a choice of the event (see C77); messages are left out.
-/
namespace Ptusa.CplSock

/-- Whom a descriptor was opened for (not known to the program). -/
inductive Owner where
  | rest
  | node (i : Nat)
  deriving DecidableEq, Repr

/-- Lowest number that is not in a list: the descriptor that the system gives out (POSIX). -/
def lowest (l : List Nat) : Nat := ((List.range (l.length + 1)).find? fun n => decide (n ∉ l)).getD 0

/-- Members of `io_node` (bus_coupler_io.h lines 350-370); `ok` is `state == ST_OK`. -/
structure Node where
  sock : Nat := 0
  ok : Bool := false
  active : Bool := true
  deriving DecidableEq, Repr

/-- Open descriptors of the process, and the nodes. -/
structure Sys where
  files : List (Nat × Owner)
  nodes : Nat → Node

/-- How the calls of the system end while a connection is made. -/
structure Ans where
  socket : Bool := true
  option : Bool := true
  nonblock : Bool := true
  ready : Bool := true
  noError : Bool := true

/-- `close` -/
def closeFd (files : List (Nat × Owner)) (fd : Nat) : List (Nat × Owner) := files.filter fun f => f.1 ≠ fd

/-- A node with other members. -/
def Sys.put (s : Sys) (i : Nat) (nd : Node) : Sys := { s with nodes := fun j => if j = i then nd else s.nodes j }

/-- Members of `fd_set` (`FD_SETSIZE`). -/
def fdSetSize : Nat := 1024

/-- `net_init` (uni_bus_coupler_io.cpp lines 15-236); `none`: undefined behaviour, `FD_SET` beyond the set. -/
def netInit (s : Sys) (i : Nat) (a : Ans) : Option Sys :=
  if a.socket = false then some s
  else
    let fd := lowest (s.files.map Prod.fst)
    let opened := (fd, Owner.node i) :: s.files
    if a.option = false then some { s with files := closeFd opened fd }
    else if a.nonblock = false then some { s with files := closeFd opened fd }
    else if fdSetSize ≤ fd then none
    else if a.ready = false then some { s with files := closeFd opened fd }
    else if a.noError = false then some { s with files := closeFd opened fd }
    else some ({ s with files := opened }.put i { s.nodes i with sock := fd, ok := true })

/-- `disconnect` (uni_bus_coupler_io.cpp lines 888-910). -/
def disconnect (s : Sys) (i : Nat) : Sys :=
  let nd := s.nodes i
  if nd.sock ≠ 0 then { s with files := closeFd s.files nd.sock }.put i { nd with sock := 0, ok := false }
  else s.put i { nd with ok := false }

/-- `e_communicate` (uni_bus_coupler_io.cpp lines 535-591) of a node that is active (lines 664-667 and the like). -/
def talk (s : Sys) (i : Nat) (due : Bool) (a : Ans) (sends receives : Bool) : Option Sys :=
  if (s.nodes i).active = false then some s
  else
    let connected := if (s.nodes i).ok then some s else if due = false then some s else netInit s i a
    match connected with
    | none => none
    | some s =>
      if (s.nodes i).ok = false then some s
      else if fdSetSize ≤ (s.nodes i).sock then none
      else if sends = false then some (disconnect s i)
      else if receives = false then some (disconnect s i)
      else some s

/-- What happens. -/
inductive Ev where
  | talk (i : Nat) (due : Bool) (a : Ans) (sends receives : Bool)
  /-- command `NODEENABLED` with 0 (PAC_info.cpp lines 303-309) -/
  | disable (i : Nat)
  /-- with 1 (PAC_info.cpp lines 293-298) -/
  | enable (i : Nat)
  /-- the rest of the program opens a file or a socket -/
  | restOpen
  /-- the rest of the program closes a descriptor of its own -/
  | restClose (fd : Nat)

/-- One event, with `n` nodes. -/
def step (n : Nat) (s : Sys) : Ev → Option Sys
  | .talk i due a sends receives => if i < n then talk s i due a sends receives else some s
  | .disable i =>
    if i < n then
      if (s.nodes i).active then
        let s := disconnect s i
        some (s.put i { s.nodes i with active := false })
      else some s
    else some s
  | .enable i => if i < n then some (s.put i { s.nodes i with active := true }) else some s
  | .restOpen => some { s with files := (lowest (s.files.map Prod.fst), .rest) :: s.files }
  | .restClose fd => some { s with files := s.files.filter fun f => ¬ (f = (fd, Owner.rest)) }

/-- A history. -/
def run (n : Nat) (s : Sys) : List Ev → Option Sys
  | [] => some s
  | e :: h => (step n s e).bind fun s => run n s h

/-- The program before the first exchange, with the descriptors the rest of it has. -/
def init (rest : List Nat) : Sys := { files := rest.map fun fd => (fd, .rest), nodes := fun _ => {} }

end Ptusa.CplSock
