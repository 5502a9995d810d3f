import Verif.Coupler.Model
import Verif.Device.Model

/-!
# The main loop of the controller

Model of the loop of `main` (PAC_control_projects/main_control_prg/main.cpp lines 160-212) with couplers of WAGO that have
digital channels only (`Ptusa.Coupler`) and the devices with one digital output: signals, lamps and sirens (`DO1`) and
motors of the sub type `DST_M`.  The commands of the technological program, of the server, of OPC UA clients
(PAC/common/OPCUAServer.cpp) and of the lamps' manager are given by the cycle: the program is a function of the inputs it
sees, any other one in each cycle.  Nodes are active.  The emulator is off.
-/
namespace Ptusa.MainLoop

open Tcp (Byte Buf)
open Coupler (Node Net Places readDi writeDo)
open Device (Prog Oper toInt32)

/-- `signal`: `DO1` (device.h lines 47-65, device.cpp lines 32-50); `motor`: `motor` of the sub type `DST_M` (device.cpp lines
2309-2371, 2459-2513). -/
inductive Kind where
  | signal | motor
  deriving DecidableEq, Repr

/-- The configuration: the number of nodes, the node and the channel of each device, its kind; `noIo` and `readOnly` are
`G_NO_IO_NODES` and `G_READ_ONLY_IO_NODES`. -/
structure Cfg where
  n : Nat
  place : Nat → Nat × Nat
  kind : Nat → Kind
  noIo : Bool := false
  readOnly : Bool := false

/-- `DO1::direct_on`, `motor::direct_on`: the byte of the output. -/
def Kind.on : Kind → Byte → Byte
  | .signal, _ => 1
  | .motor, o => if o = 0 then 1 else o

/-- `DO1::direct_off`, `motor::direct_off`. -/
def Kind.off : Kind → Byte → Byte
  | .signal, _ => 0
  | .motor, o => if o ≠ 0 then 0 else o

/-- `device::direct_set_state` (base.cpp lines 221-224), which `DO1` has: a field is set that is not the output;
`motor::direct_set_state`. -/
def Kind.set (k : Kind) (n : Int) (o : Byte) : Byte :=
  match k with
  | .signal => o
  | .motor => if n ≠ 0 then Kind.on .motor o else Kind.off .motor o

/-- A command carried out; `device::direct_set_value` (base.cpp lines 226-229) and `motor::direct_set_value` (device.cpp lines
2295-2308, without frequency output) do not touch the output. -/
def Kind.obey (k : Kind) (o : Byte) : Prog → Byte
  | .on => k.on o
  | .off | .instantOff => k.off o
  | .setState n => k.set n o
  | .setValue _ => o

/-- What clients of OPC UA ask for: `write_state`, `write_value`, with the value or without, `read_state` (OPCUAServer.cpp
lines 195-270). -/
inductive Req where
  | writeState (d : Nat) (v : Option Int)
  | writeValue (d : Nat) (v : Option Fl)
  | readState (d : Nat)

/-- The answer: the status and, for a read, the state. -/
inductive Ans where
  | good
  | denied
  | bad
  | state (b : Byte)
  deriving DecidableEq, Repr

/-- One pass of the loop.  `rd k`, `wr k`: what the network does when node `k` is read and written; `prog`: the commands of the
technological objects as a function of the inputs; `server`: commands that came from the server; `control`:
`P_IS_OPC_UA_SERVER_CONTROL` is 1; `opc`: requests of OPC UA clients; `lamps`: commands of the manager of lamps and sirens;
`stop`: a signal asked to stop meanwhile. -/
structure Cycle where
  rd : Nat → Net
  prog : (Nat → Nat → Bool) → List (Nat × Prog)
  wr : Nat → Net
  server : List (Nat × Oper)
  control : Bool
  opc : List Req
  lamps : List (Nat × Prog)
  stop : Bool

/-- The state: nodes with their images, the buffer of the exchange, the manual modes, `running` (main.cpp lines 59-63). -/
structure Sys where
  nodes : Nat → Node
  buf : Buf
  manual : Nat → Bool
  running : Bool

/-- What is seen of one pass: the inputs the program saw, the messages that set outputs (node and message), the answers to OPC
UA clients. -/
structure Rec where
  inp : Nat → Nat → Bool
  sent : List (Nat × List Byte)
  answers : List Ans

/-- Change of the byte of the output of a device: `set_DO` at its place (bus_coupler_io.cpp lines 70-90; a channel outside of
the node was not accepted, see `Ptusa.Coupler.digitalPlace`). -/
def Sys.output (s : Sys) (cfg : Cfg) (d : Nat) (f : Byte → Byte) : Sys :=
  let p := cfg.place d
  if p.1 < cfg.n ∧ p.2 < (s.nodes p.1).doCnt then
    { s with nodes := fun k => if k = p.1 then
        { s.nodes k with dReq := fun i => if i = p.2 then f ((s.nodes k).dReq i) else (s.nodes k).dReq i } else s.nodes k }
  else s

/-- The byte of the output of a device: `get_DO` (bus_coupler_io.cpp lines 44-68). -/
def Sys.shown (s : Sys) (cfg : Cfg) (d : Nat) : Byte :=
  let p := cfg.place d
  if p.1 < cfg.n ∧ p.2 < (s.nodes p.1).doCnt then (s.nodes p.1).dReq p.2 else 0

/-- A command that asks for the manual mode first (device.cpp lines 318-350, base.cpp lines 232-238). -/
def Sys.prog (cfg : Cfg) (s : Sys) (c : Nat × Prog) : Sys :=
  if s.manual c.1 then s else s.output cfg c.1 fun o => (cfg.kind c.1).obey o c.2

/-- A command of the operator: `device::set_cmd` (base.cpp lines 321-353). -/
def Sys.oper (cfg : Cfg) (s : Sys) (c : Nat × Oper) : Option Sys :=
  match c.2 with
  | .S v => (toInt32 v).map fun n => s.output cfg c.1 fun o => (cfg.kind c.1).set n o
  | .V _ => some s
  | .M v =>
    if v.eq (.num 0) then some { s with manual := fun d => if d = c.1 then false else s.manual d }
    else if v.eq (.num 1) then some { s with manual := fun d => if d = c.1 then true else s.manual d }
    else some s

/-- The commands of the server in turn. -/
def Sys.opers (cfg : Cfg) (s : Sys) : List (Nat × Oper) → Option Sys
  | [] => some s
  | c :: l => (s.oper cfg c).bind fun s => s.opers cfg l

/-- A request of an OPC UA client (OPCUAServer.cpp lines 195-270). -/
def Sys.req (cfg : Cfg) (control : Bool) (s : Sys) : Req → Sys × Ans
  | .writeState d v =>
    match v with
    | none => (s, .bad)
    | some n => if control then (s.prog cfg (d, .setState n), .good) else (s, .denied)
  | .writeValue d v =>
    match v with
    | none => (s, .bad)
    | some x => if control then (s.prog cfg (d, .setValue x), .good) else (s, .denied)
  | .readState d => (s, .state (s.shown cfg d))

/-- Requests in turn. -/
def Sys.reqs (cfg : Cfg) (control : Bool) (s : Sys) : List Req → Sys × List Ans
  | [] => (s, [])
  | r :: l =>
    let x := s.req cfg control r
    let y := x.1.reqs cfg control l
    (y.1, x.2 :: y.2)

/-- `read_inputs` (uni_bus_coupler_io.cpp lines 654-714): the first `m` nodes. -/
def Sys.read (s : Sys) (ev : Nat → Net) : Nat → Option Sys
  | 0 => some s
  | m + 1 => (s.read ev m).bind fun s =>
    if 0 < (s.nodes m).diCnt then
      (readDi s.buf (s.nodes m) (ev m)).map fun r =>
        { s with buf := r.1.buf, nodes := fun k => if k = m then r.2 else s.nodes k }
    else some s

/-- `write_outputs` (uni_bus_coupler_io.cpp lines 239-300): the first `m` nodes, and what was sent. -/
def Sys.write (s : Sys) (ev : Nat → Net) : Nat → Option (Sys × List (Nat × List Byte))
  | 0 => some (s, [])
  | m + 1 => (s.write ev m).bind fun x =>
    if 0 < (x.1.nodes m).doCnt then
      (writeDo x.1.buf (x.1.nodes m) (ev m)).map fun r =>
        ({ x.1 with buf := r.1.buf, nodes := fun k => if k = m then r.2 else x.1.nodes k },
          x.2 ++ r.1.sent.map fun q => (m, q))
    else some x

/-- The digital inputs of the nodes. -/
def Sys.inputs (s : Sys) : Nat → Nat → Bool := fun k => (s.nodes k).di

/-- The first part of a pass (main.cpp lines 179-190): inputs, program, outputs. -/
def Sys.control (cfg : Cfg) (s : Sys) (c : Cycle) : Option (Sys × (Nat → Nat → Bool) × List (Nat × List Byte)) :=
  (if cfg.noIo then some s else s.read c.rd cfg.n).bind fun s1 =>
    let s2 := (c.prog s1.inputs).foldl (Sys.prog cfg) s1
    (if cfg.noIo || cfg.readOnly then some (s2, []) else s2.write c.wr cfg.n).map fun r => (r.1, s1.inputs, r.2)

/-- The second part (main.cpp lines 193-211): commands of the server, OPC UA clients, lamps. -/
def Sys.serve (cfg : Cfg) (s : Sys) (c : Cycle) : Option (Sys × List Ans) :=
  (s.opers cfg c.server).map fun s =>
    let r := s.reqs cfg c.control c.opc
    (c.lamps.foldl (Sys.prog cfg) r.1, r.2)

/-- One pass of the loop (main.cpp lines 160-212); `stopHandler` (lines 60-63) only clears `running`, so that the pass
is finished. -/
def Sys.cycle (cfg : Cfg) (s : Sys) (c : Cycle) : Option (Sys × Rec) :=
  if s.running then
    (s.control cfg c).bind fun x =>
      (x.1.serve cfg c).map fun y => ({ y.1 with running := !c.stop }, ⟨x.2.1, x.2.2, y.2⟩)
  else some (s, ⟨s.inputs, [], []⟩)

/-- A history of passes; after the end of the loop nothing happens. -/
def run (cfg : Cfg) (s : Sys) : List Cycle → Option (Sys × List Rec)
  | [] => some (s, [])
  | c :: h => (s.cycle cfg c).bind fun x => (run cfg x.1 h).map fun y => (y.1, x.2 :: y.2)

/-- At the beginning: the outputs are 0 (`io_node` clears its arrays, bus_coupler_io.cpp lines 1293-1302), no device is in
manual mode. -/
def Sys.init (nodes : Nat → Node) (buf : Buf) : Sys :=
  ⟨fun k => { nodes k with dReq := fun _ => 0 }, buf, fun _ => false, true⟩

end Ptusa.MainLoop
