import Mathlib.Data.Rat.Init

/-!
# The OPC UA server: PAC/common/OPCUAServer.cpp, its switching by the server of the project (PAC_info.cpp lines 331-358) and at the
start of the program (PAC_control_projects/main_control_prg/main.cpp lines 141-152, 193-199)

The library keeps variables under their text identifiers (name space 0) and refuses an identifier it already has; a server answers its
clients when it has been started and is iterated.  Whether a start succeeds is given.  The devices are fixed by the project before.  Memory
suffices, the saved parameters are written at once.
-/
namespace Ptusa.OpcUa

abbrev Txt := List Char

/-- The four callbacks of variables (OPCUAServer.cpp lines 87-90, 113-116, 149-164); `dev`: the position of the device which is the context
of the node. -/
inductive Kind
  | value (dev : Nat)
  | state (dev : Nat)
  | uptime
  | version
  deriving DecidableEq, Repr

/-- A variable. -/
structure Node where
  id : Txt
  kind : Kind
  deriving DecidableEq, Repr

/-- `UA_Server_addVariableNode`. -/
def addNode (ns : List Node) (n : Node) : List Node := if ns.any (·.id == n.id) then ns else ns ++ [n]

/-- The two variables of a device (OPCUAServer.cpp lines 62-116). -/
def addDev (ns : List Node) (name : Txt) (i : Nat) : List Node :=
  addNode (addNode ns ⟨name ++ ".value".toList, .value i⟩) ⟨name ++ ".state".toList, .state i⟩

/-- The loop of `create_dev_objects` (lines 46-117), from the device `i` on. -/
def addDevs (ns : List Node) : List Txt → Nat → List Node
  | [], _ => ns
  | name :: rest, i => addDevs (addDev ns name i) rest (i + 1)

/-- The variables of `create_PAC_info` (lines 138-167). -/
def addInfo (ns : List Node) : List Node :=
  addNode (addNode ns ⟨"PAC_info.uptime".toList, .uptime⟩) ⟨"PAC_info.version".toList, .version⟩

/-- A server of the library: its variables and whether it has been started. -/
structure Inst where
  nodes : List Node := []
  running : Bool := false
  deriving DecidableEq, Repr

/-- `OPCUA_server` (OPCUAServer.h), the parameter `P_IS_OPC_UA_SERVER_ACTIVE` in memory and as saved, and whether the program runs. -/
structure St where
  server : Option Inst := none
  devCreated : Bool := false
  infoCreated : Bool := false
  active : Nat := 0
  saved : Nat := 0
  alive : Bool := true
  deriving DecidableEq, Repr

/-- `init` (lines 20-28): a server if there is none yet. -/
def St.init (s : St) : St := { s with server := some (s.server.getD {}) }

/-- `create_dev_objects` (lines 30-117). -/
def St.createDev (s : St) (names : List Txt) : St :=
  match s.server with
  | none => s
  | some i => if s.devCreated then s else { s with server := some { i with nodes := addDevs i.nodes names 0 }, devCreated := true }

/-- `create_PAC_info` (lines 119-168). -/
def St.createInfo (s : St) : St :=
  match s.server with
  | none => s
  | some i => if s.infoCreated then s else { s with server := some { i with nodes := addInfo i.nodes }, infoCreated := true }

/-- `start` (lines 170-173), `ok`: it succeeds; a server which runs already goes on. -/
def St.start (s : St) (ok : Bool) : St := { s with server := s.server.map fun i => { i with running := i.running || ok } }

/-- `init_all_and_start` (OPCUAServer.h). -/
def St.initAll (s : St) (names : List Txt) (ok : Bool) : St := ((s.init.createDev names).createInfo).start ok

/-- `shutdown` (lines 175-185). -/
def St.shutdown (s : St) : St :=
  match s.server with
  | none => s
  | some _ => { s with server := none, devCreated := false }

/-- The command `P_IS_OPC_UA_SERVER_ACTIVE` (PAC_info.cpp lines 331-358) and its result. -/
def St.cmd (s : St) (names : List Txt) (v : Rat) (ok : Bool) : St × Int :=
  if v = 0 ∧ s.active = 1 then (({ s with active := 0, saved := 0 } : St).shutdown, 0)
  else if v = 1 ∧ s.active = 0 then
    (({ s with active := 1, saved := 1 } : St).initAll names ok, if ok then 0 else 1)
  else (s, 0)

/-- `reset_params` (PAC_info.cpp lines 72-95). -/
def St.reset (s : St) : St := { s with active := 0, saved := 0 }

/-- A new start of the program with the saved parameter (main.cpp lines 141-152). -/
def St.restart (s : St) (names : List Txt) (ok : Bool) : St :=
  let s1 : St := { active := s.saved, saved := s.saved }
  if s.saved = 1 then
    if ok then s1.initAll names ok else { s1.initAll names ok with alive := false }
  else s1

/-- Events. -/
inductive Ev
  | cmd (v : Rat) (ok : Bool)
  | reset
  | restart (ok : Bool)
  deriving DecidableEq

/-- One event; a program which has ended only starts anew. -/
def St.step (names : List Txt) (s : St) : Ev → St
  | .cmd v ok => if s.alive then (s.cmd names v ok).1 else s
  | .reset => if s.alive then s.reset else s
  | .restart ok => s.restart names ok

/-- A history. -/
def St.run (names : List Txt) (s : St) (es : List Ev) : St := es.foldl (St.step names) s

/-- `evaluate` in the main cycle (main.cpp lines 194-199, OPCUAServer.cpp lines 187-190): the server which is iterated. -/
def St.iterated (s : St) : Option Inst := if s.alive = true ∧ s.active = 1 then s.server else none

/-- The variables shown to clients. -/
def St.shown (s : St) : Option (List Node) :=
  match s.iterated with
  | some i => if i.running then some i.nodes else none
  | none => none

/-- What a client reads under an identifier: the first variable with it. -/
def look (ns : List Node) (id : Txt) : Option Kind := (ns.find? (·.id == id)).map (·.kind)

end Ptusa.OpcUa
