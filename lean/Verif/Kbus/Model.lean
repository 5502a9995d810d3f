/-!
# The modules on the bus of a PFC200: `PAC/linux/PAC_PFC200/bus_coupler_io_PFC200.cpp`

`io_manager_PFC200` reads and writes the modules that are plugged into the controller itself (K-bus) through a library
of the manufacturer (`adi`), whose answers are parameters.  Access outside of the buffers of 4096 bytes, of the arrays
of a node or of the list of devices is the outcome `none`.  Not modelled: the switch to real-time priority, the log.
-/
namespace Ptusa.Kbus

/-- A byte. -/
abbrev Byte := BitVec 8

/-- Contents of a buffer (`pd_in`, `pd_out`). -/
abbrev Buf := Nat → Byte

/-- Size of the buffers (bus_coupler_io_PFC200.h:47-48). -/
def bufSize : Nat := 4096

/-- `C_ANALOG_BUF_SIZE` (bus_coupler_io.h:333). -/
def analogSize : Nat := 63 * 32

/-- What a project says about the node (bus_coupler_io.h:364-388). -/
structure Conf where
  diCnt : Nat
  aiTypes : List Nat
  aiSize : Nat
  doCnt : Nat
  aoTypes : List Nat
  aoSize : Nat
  deriving DecidableEq, Repr

/-- The image of the node: `DI`, `AI`, the outputs to write `DO_`, `AO_` and what is reported about them, `DO`, `AO`. -/
structure Node where
  di : Nat → Bool
  ai : Nat → BitVec 16
  doTo : Nat → Bool
  aoTo : Nat → BitVec 16
  doIs : Nat → Bool
  aoIs : Nat → BitVec 16

/-- The driver: its buffers and the node. -/
structure Drv where
  pdIn : Buf
  pdOut : Buf
  node : Node

/-! ### Reading (`read_inputs`, lines 121-217) -/

/-- What the library does with a reading: the results of `ReadStart`, `ReadBytes`, `ReadEnd` and the contents of the buffer after
them. -/
structure Answer where
  start : Int
  bytes : Int
  fin : Int
  buf : Buf

/-- Number of bytes asked for (line 139). -/
def Conf.inSize (c : Conf) : Nat := c.aiSize + c.diCnt / 8 + 1

/-- The loop over the digital inputs (lines 157-171): the index `j * 8 + k` runs through all inputs. -/
def readDi (buf : Buf) (offset : Nat) : Nat → (Nat → Bool) → Nat → Bool
  | 0, di => di
  | n + 1, di => fun i => if i = n then ((buf (n / 8 + offset)) >>> (n % 8) &&& 1) == 1 else readDi buf offset n di i

/-- The loop over the analog inputs (lines 190-205); `none` when it leaves the buffer or the array. -/
def readAi (buf : Buf) : List Nat → (j offset : Nat) → (Nat → BitVec 16) → Option (Nat → BitVec 16)
  | [], _, _, ai => some ai
  | t :: rest, j, offset, ai =>
    let w := if t = 638 then offset + 2 else offset
    if w + 1 < bufSize ∧ j < analogSize then
      let v := BitVec.ofNat 16 ((buf w).toNat + 256 * (buf (w + 1)).toNat)
      readAi buf rest (j + 1) (if t = 638 then offset + 4 else offset + 2) (fun i => if i = j then v else ai i)
    else none

/-- `read_inputs` of the active node (lines 138-210). -/
def Drv.read (d : Drv) (c : Conf) (a : Answer) : Option Drv :=
  if c.inSize ≤ bufSize then
    let d := { d with pdIn := a.buf }
    let res := a.start + a.bytes + a.fin
    let d := if 0 < c.diCnt ∧ res = 0 then
      { d with node := { d.node with di := readDi d.pdIn c.aiSize c.diCnt d.node.di } } else d
    if 0 < c.aiTypes.length then
      (readAi d.pdIn c.aiTypes 0 0 d.node.ai).map fun ai => { d with node := { d.node with ai := ai } }
    else some d
  else none

/-! ### Writing (`write_outputs`, lines 219-297) -/

/-- One byte of a buffer. -/
def Buf.set (b : Buf) (i : Nat) (v : Byte) : Buf := fun k => if k = i then v else b k

/-- Lines 237-245: one digital output. -/
def setBit (b : Byte) (k : Nat) (v : Bool) : Byte := if v then b ||| (1#8 <<< k) else b &&& ~~~(1#8 <<< k)

/-- The loop over the digital outputs (lines 235-250). -/
def writeDo (out : Nat → Bool) (start : Nat) : Nat → Buf → Option Buf
  | 0, b => some b
  | n + 1, b =>
    match writeDo out start n b with
    | none => none
    | some b =>
      let p := start + n / 8
      if p < bufSize then some (b.set p (setBit (b p) (n % 8) (out n))) else none

/-- The loop over the analog outputs (lines 256-283). -/
def writeAo (ao : Nat → BitVec 16) : List Nat → (j offset : Nat) → Buf → Option Buf
  | [], _, _, b => some b
  | t :: rest, j, offset, b =>
    if t = 638 then
      if offset + 3 < bufSize ∧ j < analogSize then
        writeAo ao rest (j + 1) (offset + 4)
          ((((b.set offset 0).set (offset + 1) 0).set (offset + 2) 0).set (offset + 3) 0)
      else none
    else
      if offset + 1 < bufSize ∧ j < analogSize then
        writeAo ao rest (j + 1) (offset + 2)
          ((b.set offset ((ao j).setWidth 8)).set (offset + 1) (((ao j).sshiftRight 8).setWidth 8))
      else none

/-- Number of bytes written (line 288). -/
def Conf.outSize (c : Conf) : Nat := c.aoSize + c.doCnt / 8 + 1

/-- `write_outputs` (lines 227-293): the driver after it and the bytes given to the library; the results `_res` of
`WriteStart`, `WriteBytes`, `WriteEnd` are not looked at. -/
def Drv.write (d : Drv) (c : Conf) (_res : Int × Int × Int) : Option (Drv × List Byte) :=
  match writeDo d.node.doTo c.aoSize c.doCnt d.pdOut with
  | none => none
  | some b =>
    match writeAo d.node.aoTo c.aoTypes 0 0 b with
    | none => none
    | some b =>
      if c.outSize ≤ bufSize then
        some ({ d with pdOut := b, node := { d.node with
          doIs := fun i => if i < c.doCnt then d.node.doTo i else d.node.doIs i
          aoIs := fun i => if i < c.aoTypes.length then d.node.aoTo i else d.node.aoIs i } },
          (List.range c.outSize).map b)
      else none

/-! ### Histories -/

/-- What happens to the node; `outputs` is the rest of the program, which sets the outputs to write. -/
inductive Ev where
  | read (a : Answer)
  | outputs (d : Nat → Bool) (a : Nat → BitVec 16)
  | write (res : Int × Int × Int)

/-- One event. -/
def Drv.step (c : Conf) (d : Drv) : Ev → Option Drv
  | .read a => d.read c a
  | .outputs o a => some { d with node := { d.node with doTo := o, aoTo := a } }
  | .write res => (d.write c res).map (·.1)

/-- A history. -/
def Drv.run (c : Conf) (d : Drv) : List Ev → Option Drv
  | [] => some d
  | e :: rest =>
    match d.step c e with
    | none => none
    | some d => d.run c rest

/-! ### The start (`io_manager_PFC200`, lines 16-113) -/

/-- How the start ends: `exit( EXIT_FAILURE )` or the device that was opened. -/
inductive Start where
  | exit
  | running (id : Nat)
  deriving DecidableEq, Repr

/-- A device on the list: its name and number. -/
structure Dev where
  name : String
  id : Nat
  deriving DecidableEq, Repr

/-- Number of elements of `devList` (bus_coupler_io_PFC200.h:40). -/
def listSize : Nat := 10

/-- The loop that looks for the bus (lines 50-61); `nr_kbus_found` is a `size_t`, so -1 is its greatest value. -/
def findKbus : List Dev → Nat → BitVec 64 → BitVec 64
  | [], _, found => found
  | d :: rest, i, found => findKbus rest (i + 1) (if d.name = "libpackbus" then BitVec.ofNat 64 i else found)

/-- The constructor: the successes of `Init`, `ScanDevices`, `GetDeviceList`, the devices found, the successes of
`OpenDevice` and of `ApplicationStateChanged`. -/
def start (init scan list : Bool) (devs : List Dev) (opened : Nat → Bool) (state : Bool) : Option Start :=
  if init = false then some .exit
  else if scan = false then some .exit
  else if list = false then some .exit
  else
    let nr := findKbus devs 0 (-1)
    -- line 64: `nr_kbus_found < 0` for an unsigned number
    if nr.toNat < 0 then some .exit
    -- line 82: `devList[ nr_kbus_found ]`
    else if nr.toNat < listSize then
      match devs[nr.toNat]? with
      | some d =>
        if opened d.id = false then some .exit
        else if state = false then some .exit
        else some (.running d.id)
      | none => none
    else none

end Ptusa.Kbus
