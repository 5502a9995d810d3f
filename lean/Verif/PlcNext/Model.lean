/-!
# The program as a component of a PLCnext controller

Model of `PtusaMainPrg::Execute` (PAC/linux/PAC_PLCnext/PtusaPLCnextEngineer/PtusaMainPrg.cpp lines 34-223) and of `Start` and `Stop` of
`PtusaMainCmpnt` (PtusaMainCmpnt.hpp lines 33-49, 84-87).  `Start` and `Stop` are called by the controller from another thread at any
time; `Execute` is called again and again by a task of the controller, each time when it has returned.  What one cycle of the loop does
to inputs, devices and outputs is the model `MainLoop`; here it is one action.  Whether loading the project and starting the OPC UA
server succeed is given.  Writing to `running` takes effect at the next test of the loop.
-/
namespace Ptusa.PlcNext

/-- What the controller calls. -/
inductive Ctl where
  | start
  | stop
  deriving DecidableEq

/-- `running`, `init_flag`, `error_flag` of the component; whether `Execute` is in its loop; whether the last loading of the project came
to its end without an error; `P_IS_OPC_UA_SERVER_ACTIVE`; whether a started OPC UA server exists. -/
structure St where
  running : Bool := false
  initFlag : Bool := true
  errorFlag : Bool := false
  inLoop : Bool := false
  whole : Bool := false
  opcPar : Bool := false
  opc : Bool := false
  deriving DecidableEq

/-- What the program does. -/
inductive Act where
  /-- It begins to load the project. -/
  | load
  /-- It has loaded the project and goes into its loop. -/
  | ready
  /-- A cycle of the control; `whole`: the project is completely loaded. -/
  | cycle (whole : Bool)
  /-- Clients of the OPC UA server are answered. -/
  | serve
  deriving DecidableEq

/-- `Start`, `Stop` (PtusaMainCmpnt.hpp lines 33-49). -/
def St.ctl (s : St) : Ctl → St
  | .start => { s with running := true }
  | .stop => { s with running := false }

/-- A call of `Execute`: the results of loading, the parameter as it was saved, the result of the start of the OPC UA server, and what
the controller calls in the meantime. -/
structure Call where
  lua : Bool := true
  par : Bool := false
  opcOk : Bool := true
  mid : List Ctl := []

/-- `Execute` up to its loop (PtusaMainPrg.cpp lines 38-81). -/
def St.call (s : St) (e : Call) : St × List Act :=
  if s.inLoop then (s, [])
  else if s.initFlag && !s.errorFlag then
    let t := e.mid.foldl St.ctl s
    if !e.lua then ({ t with errorFlag := true, whole := false }, [.load])
    else if e.par && !e.opcOk then ({ t with whole := true, opcPar := e.par }, [.load])
    else ({ t with whole := true, opcPar := e.par, opc := t.opc || e.par, initFlag := false, running := true, inLoop := true },
      [.load, .ready])
  else ({ s with inLoop := true }, [])

/-- One turn of the loop: a command for the OPC UA server that may come (wanted state, whether a start succeeds; PAC_info.cpp lines
331-358), and what the controller calls in the meantime. -/
structure Turn where
  opc : Option (Bool × Bool) := none
  mid : List Ctl := []

/-- The command for the OPC UA server. -/
def St.opcCmd (s : St) : Option (Bool × Bool) → St
  | none => s
  | some (true, ok) => if s.opcPar then s else { s with opcPar := true, opc := s.opc || ok }
  | some (false, _) => if s.opcPar then { s with opcPar := false, opc := false } else s

/-- One test of the condition of the loop with the cycle (PtusaMainPrg.cpp lines 83-217), or the end of `Execute` (lines 219-222). -/
def St.turn (s : St) (t : Turn) : St × List Act :=
  if s.inLoop then
    if s.running then
      let u := s.opcCmd t.opc
      (t.mid.foldl St.ctl u, .cycle s.whole :: (if u.opcPar && u.opc then [.serve] else []))
    else ({ s with inLoop := false, opc := false }, [])
  else (s, [])

/-- What happens. -/
inductive Ev where
  | ctl (c : Ctl)
  | call (e : Call)
  | turn (t : Turn)

def St.step (s : St) : Ev → St × List Act
  | .ctl c => (s.ctl c, [])
  | .call e => s.call e
  | .turn t => s.turn t

/-- A history: the state after it and all that was done. -/
def St.run (s : St) : List Ev → St × List Act
  | [] => (s, [])
  | e :: es => let r := s.step e; let q := r.1.run es; (q.1, r.2 ++ q.2)

end Ptusa.PlcNext
