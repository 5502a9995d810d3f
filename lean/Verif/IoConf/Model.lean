/-!
# Configuration of the inputs and outputs: `PAC/common/bus_coupler_io.cpp`

Model of the calls with which the script of a project creates the nodes of inputs and outputs (`io_manager::init`,
`add_node`, `init_node_AO`, `init_node_AI`, lines 944-957, 1128-1158, and the constructor of `io_node`, lines 1215-1302), and
of the binding of the channels of devices to them (`get_DI_read_data` … `get_AO_write_data`, lines 997-1098, called by
`init_channel`, lines 878-942).

Nodes are objects on the heap, which are never freed while the program runs; a channel keeps a pointer into such an object.
Outcomes that are undefined, or exceptions that nobody catches, are `none`.  Simplifications: there is always memory; numbers
of nodes and channels are not negative, except where a call has a signed type; texts are their bytes without the end; a channel of a
device is a number, whether the device has it is in `Ptusa.Coupler` (C79).
-/
namespace Ptusa.IoConf

/-- Arguments of `add_node`; a text can be a null pointer. -/
structure Args where
  type : Int
  number : Int
  ip : Option (List Nat)
  name : Option (List Nat)
  doCnt : Int
  diCnt : Int
  aoCnt : Int
  aiCnt : Int
  deriving DecidableEq, Repr

/-- Members of `io_node` (bus_coupler_io.h lines 355-388); `ao` and `ai` are `AO_types` with `AO_offsets`, and so on. -/
structure Node where
  type : Int
  number : Int
  ip : List Nat
  name : List Nat
  active : Bool
  doCnt : Nat
  diCnt : Nat
  ao : List (Nat × Nat)
  ai : List (Nat × Nat)
  deriving DecidableEq, Repr

/-- The constructor (lines 1215-1302): `strcpy` into 16 and 20 bytes (bus_coupler_io.h lines 358-359), `%s` of a null pointer, arrays of
negative size. -/
def create (a : Args) : Option Node :=
  let ip := a.ip.getD []
  if 16 ≤ ip.length then none
  else
    let off := (ip = [] ∧ 100 ≤ a.type) ∨ a.type = -1
    if off ∧ a.name = none then none
    else if 20 ≤ (a.name.getD []).length then none
    else if a.aiCnt < 0 ∨ a.aoCnt < 0 ∨ a.diCnt < 0 ∨ a.doCnt < 0 then none
    else
      some { type := a.type, number := a.number, ip := ip, name := a.name.getD [], active := decide ¬ off, doCnt := a.doCnt.toNat,
             diCnt := a.diCnt.toNat, ao := List.replicate a.aoCnt.toNat (0, 0), ai := List.replicate a.aiCnt.toNat (0, 0) }

/-- Kinds of channels. -/
inductive Kind where
  | di | dout | ai | ao
  deriving DecidableEq, Repr

/-- The manager: `nodes` with `nodes_count` elements, the objects created so far by their numbers, and where the channels of devices
point to. -/
structure Mgr where
  arr : List (Option Nat) := []
  heap : List Node := []
  bound : Nat → Option (Nat × Nat) := fun _ => none

/-- `C_ANALOG_BUF_SIZE` (bus_coupler_io.h line 333). -/
def analogSize : Nat := 63 * 32

/-- Number of elements of the array of a node for channels of a kind. -/
def Node.limit (n : Node) : Kind → Nat
  | .di => n.diCnt
  | .dout => n.doCnt
  | .ai => analogSize
  | .ao => analogSize

/-- `get_DI_read_data` and the others (lines 997-1098): the object and the element; a null pointer if there is none. -/
def Mgr.place (m : Mgr) (k : Kind) (node off : Nat) : Option (Nat × Nat) :=
  match m.arr[node]? with
  | some (some id) =>
    match m.heap[id]? with
    | some n => if off < n.limit k then some (id, off) else none
    | none => none
  | _ => none

/-- Calls of the script. -/
inductive Call where
  | init (n : Int)
  | add (i : Nat) (a : Args)
  | initAo (i j type off : Nat)
  | initAi (i j type off : Nat)
  /-- `init_channel` of the channel `c` of a device -/
  | bind (c : Nat) (k : Kind) (i off : Nat)
  deriving DecidableEq, Repr

/-- Setting of an analog channel (lines 1140-1158): a node that was not added is a null pointer. -/
def Mgr.setAnalog (m : Mgr) (i : Nat) (f : Node → Node) : Option Mgr :=
  match m.arr[i]? with
  | none => some m
  | some none => none
  | some (some id) => some { m with heap := m.heap.modify id f }

/-- One call. -/
def Mgr.step (m : Mgr) : Call → Option Mgr
  | .init n => if n < 0 then none else some { m with arr := List.replicate n.toNat none }
  | .add i a =>
    if i < m.arr.length then
      match create a with
      | none => none
      | some n => some { m with arr := m.arr.set i (some m.heap.length), heap := m.heap ++ [n] }
    else some m
  | .initAo i j t o => m.setAnalog i fun n => { n with ao := n.ao.set j (t, o) }
  | .initAi i j t o => m.setAnalog i fun n => { n with ai := n.ai.set j (t, o) }
  | .bind c k i off => some { m with bound := fun d => if d = c then m.place k i off else m.bound d }

/-- A script. -/
def Mgr.run (m : Mgr) : List Call → Option Mgr
  | [] => some m
  | c :: h =>
    match m.step c with
    | none => none
    | some m => m.run h

/-- The node with a number, if it was created. -/
def Mgr.node (m : Mgr) (i : Nat) : Option Node :=
  match m.arr[i]? with
  | some (some id) => m.heap[id]?
  | _ => none

end Ptusa.IoConf
