import Verif.Tcp.Model
import Verif.CritErr.Model

/-!
# Exchange with I/O couplers

Model of `uni_io_manager` (PAC/common/uni_bus_coupler_io.{h,cpp}) and of the channels of `io_device`
(PAC/common/bus_coupler_io.{h,cpp}).  What the network does during one exchange is a parameter.  The Windows variant,
logging and statistics are left out.  The buffer is shared by all nodes: `read_inputs` and `write_outputs` go through the
nodes one by one, so every theorem about one node is for any contents of the buffer.
-/
namespace Ptusa.Coupler

open Tcp (Byte Buf put get)

abbrev Tm := BitVec 64

/-- `BUFF_SIZE` (uni_bus_coupler_io.h line 47). -/
def buffSize : Nat := 262

/-- `MAX_MODBUS_REGISTERS_PER_QUERY` (uni_bus_coupler_io.h line 46). -/
def maxRegs : Nat := 123

/-- `C_ANALOG_BUF_SIZE` (bus_coupler_io.h line 326). -/
def analogSize : Nat := 63 * 32

/-! ### The connection -/

/-- The part of `io_node` that is about the connection (bus_coupler_io.h lines 347-391). -/
structure Link where
  /-- `state == ST_OK`. -/
  ok : Bool
  lastPoll : Tm
  /-- `is_set_err`. -/
  alarm : Bool
  lastInit : Tm
  delay : Tm
  deriving DecidableEq, Repr

/-- A node created at time `t` (bus_coupler_io.cpp lines 1159-1192). -/
def Link.init (t : Tm) : Link := ⟨false, t, false, t, 500⟩

/-- What happens during one call of `e_communicate`: the clock at its beginning and its end, whether `net_init` succeeds,
whether `sendall` succeeds, and what `recvtimeout` delivers (nothing: timeout, error or end of the connection). -/
structure Net where
  now : Tm
  after : Tm
  connects : Bool
  sends : Bool
  got : List Byte

/-- `AC_NO_CONNECTION`, `AC_SERVICE` and `AS_IO_COUPLER` (PAC_err.h lines 53-74). -/
def noConnection : BitVec 32 := 1
def service : BitVec 32 := 5
def ioCoupler : BitVec 32 := 1

/-- The check of the connection (uni_bus_coupler_io.cpp lines 499-519): the calls are those of the list of critical errors. -/
def Link.watch (l : Link) (num : BitVec 64) (now : Tm) : Link × List CritErr.Call :=
  if 6000 < Time.deltaMs now l.lastPoll then
    if l.alarm = false then ({ l with alarm := true }, [.set noConnection ioCoupler num]) else (l, [])
  else
    if l.alarm then ({ l with alarm := false }, [.reset noConnection ioCoupler num]) else (l, [])

/-- What a call of `e_communicate` leaves. -/
structure Talk where
  link : Link
  calls : List CritErr.Call
  /-- `net_init` was called. -/
  tried : Bool
  /-- The request was sent. -/
  sent : Bool
  /-- The result is 0: something was received. -/
  ok : Bool

/-- `e_communicate` (uni_bus_coupler_io.cpp lines 495-583) apart from the buffer. -/
def talk (l : Link) (num : BitVec 64) (e : Net) : Talk :=
  let w := l.watch num e.now
  let l := w.1
  if l.ok = false ∧ Time.deltaMs e.now l.lastInit < l.delay then ⟨l, w.2, false, false, false⟩
  else if l.ok = false ∧ e.connects = false then
    ⟨{ l with lastInit := e.after, delay := if l.delay < 60000 then l.delay + l.delay else l.delay }, w.2, true, false, false⟩
  else
    let l1 := { l with ok := true, delay := 500 }
    if e.sends = false then ⟨{ l1 with ok := false }, w.2, !l.ok, false, false⟩
    else if e.got = [] then ⟨{ l1 with ok := false }, w.2, !l.ok, true, false⟩
    else ⟨{ l1 with lastPoll := e.after }, w.2, !l.ok, true, true⟩

/-- The command `NODEENABLED` for an existing node (PAC_info.cpp lines 288-329). -/
inductive Cmd where
  | enable | disable | clear
  deriving DecidableEq, Repr

/-- Its effect on the connection and whether the node is active. -/
def Cmd.run (c : Cmd) (num : BitVec 64) (active : Bool) (l : Link) : Bool × Link × List CritErr.Call :=
  match c with
  | .enable => (true, l, [.reset service ioCoupler num])
  | .disable => (false, if active then { l with ok := false, alarm := false } else { l with alarm := false },
      [.set service ioCoupler num, .reset noConnection ioCoupler num])
  | .clear => (active, { l with alarm := false }, [.reset service ioCoupler num, .reset noConnection ioCoupler num])

/-- The node a command with the number `idx` means among `n` nodes (PAC_info.cpp lines 290-292): nothing, or an index, which
may be before the first node. -/
def nodeOf (n idx : BitVec 32) : Option (BitVec 32) := if idx ≤ n then some (idx - 1) else none

/-! ### One exchange -/

/-- The buffer, how the exchange went and what was sent. -/
structure Ex where
  buf : Buf
  talk : Talk
  sent : List (List Byte)

/-- `e_communicate` with `ns` bytes of the buffer to send and at most `nr` bytes to receive.  Using more than the buffer is
undefined. -/
def exchange (b : Buf) (l : Link) (num : BitVec 64) (ns nr : Nat) (e : Net) : Option Ex :=
  if buffSize < ns then none
  else
    let t := talk l num e
    let r := e.got.take nr
    if t.ok then
      if buffSize < r.length then none else some ⟨put b 0 r, t, [get b 0 ns]⟩
    else some ⟨b, t, if t.sent then [get b 0 ns] else []⟩

/-! ### The node -/

/-- `io_node` (bus_coupler_io.h lines 305-404). -/
structure Node where
  link : Link
  num : BitVec 64
  diCnt : Nat
  di : Nat → Bool
  aiCnt : Nat
  aiSize : Nat
  aiType : Nat → Nat
  ai : Nat → BitVec 16
  doCnt : Nat
  /-- `DO`: what the coupler has confirmed. -/
  dCur : Nat → Byte
  /-- `DO_`: what is to be written. -/
  dReq : Nat → Byte
  aoCnt : Nat
  aoSize : Nat
  aoType : Nat → Nat
  aCur : Nat → BitVec 16
  aReq : Nat → BitVec 16

/-- Eight bits as a byte, the first one lowest. -/
def packByte (f : Nat → Bool) : Byte :=
  (List.range 8).foldl (fun b k => b ||| ((if f k then 1#8 else 0#8) <<< k)) 0

/-- `cnt / 8 + ( cnt % 8 > 0 ? 1 : 0 )`. -/
def bytesOf (cnt : Nat) : Nat := cnt / 8 + (if cnt % 8 > 0 then 1 else 0)

/-- The request for digital inputs (uni_bus_coupler_io.cpp lines 655-666): the count is cut to one byte before the shift. -/
def reqDi (cnt : Nat) : List Byte :=
  [0x73, 0x73, 0, 0, 0, 6, 0, 0x02, 0, 0, (BitVec.ofNat 8 cnt) >>> 8, BitVec.ofNat 8 cnt]

/-- Reading digital inputs of a WAGO coupler (uni_bus_coupler_io.cpp lines 653-714). -/
def readDi (b : Buf) (nd : Node) (e : Net) : Option (Ex × Node) :=
  let n := bytesOf nd.diCnt
  (exchange (put b 0 (reqDi nd.diCnt)) nd.link nd.num 12 (n + 9) e).bind fun x =>
    let nd := { nd with link := x.talk.link }
    if x.talk.ok ∧ x.buf 7 = 0x02 ∧ (x.buf 8).toNat = n then
      some (x, { nd with di := fun i => if i < nd.diCnt then (x.buf (9 + i / 8)).getLsbD (i % 8) else nd.di i })
    else some (x, nd)

/-- The request for analog inputs (uni_bus_coupler_io.cpp lines 718-732). -/
def reqAi (size : Nat) : List Byte :=
  [0x73, 0x73, 0, 0, 0, 6, 0, 0x04, 0, 0, BitVec.ofNat 8 (size % 256 / 2 / 256), BitVec.ofNat 8 (size % 256 / 2)]

/-- The bytes of a channel of a WAGO coupler: modules 638 have four, others two. -/
def width (ty : Nat) : Nat := if ty = 638 then 4 else 2

/-- Where the channel `l` begins. -/
def place (ty : Nat → Nat) : Nat → Nat
  | 0 => 0
  | l + 1 => place ty l + width (ty l)

/-- Reading analog inputs of a WAGO coupler (uni_bus_coupler_io.cpp lines 716-770): the value is in the last two bytes of the
channel. -/
def readAi (b : Buf) (nd : Node) (e : Net) : Option (Ex × Node) :=
  (exchange (put b 0 (reqAi nd.aiSize)) nd.link nd.num 12 (nd.aiSize + 9) e).bind fun x =>
    let nd := { nd with link := x.talk.link }
    if x.talk.ok ∧ x.buf 7 = 0x04 ∧ (x.buf 8).toNat = nd.aiSize then
      if nd.aiCnt ≤ analogSize ∧ 9 + place nd.aiType nd.aiCnt ≤ buffSize then
        some (x, { nd with
          ai := fun l =>
            if l < nd.aiCnt then x.buf (7 + place nd.aiType (l + 1)) ++ x.buf (8 + place nd.aiType (l + 1)) else nd.ai l })
      else none
    else some (x, nd)

/-- Modules of IO-Link masters, whose words are copied as they are (uni_bus_coupler_io.cpp lines 823-827, 410-417). -/
def isIol (ty : Nat) : Bool := ty == 1027843 || ty == 1088132

/-- `read_input_registers` (uni_bus_coupler_io.cpp lines 585-613): the request. -/
def reqRegs (addr n : Nat) : List Byte :=
  [0x73, 0x73, 0, 0, 0, 6, 0, 0x04, BitVec.ofNat 8 (addr / 256), BitVec.ofNat 8 addr, BitVec.ofNat 8 (n / 256), BitVec.ofNat 8 n]

/-- The words and bits of one part of the inputs of a Phoenix coupler (uni_bus_coupler_io.cpp lines 818-853). -/
def takeRegs (x : Buf) (nd : Node) (start n : Nat) : Node :=
  { nd with
    ai := fun i =>
      if start ≤ i ∧ i < start + n then
        let p := 9 + 2 * (i - start)
        if isIol (nd.aiType i) then x (p + 1) ++ x p else x p ++ x (p + 1)
      else nd.ai i
    di := fun i =>
      if 16 * start ≤ i ∧ i < 16 * (start + n) then (x (9 + (i - 16 * start) / 8)).getLsbD ((i - 16 * start) % 8)
      else nd.di i }

/-- How many registers go into the request from `start` on. -/
def part (cnt start : Nat) : Nat := min maxRegs (cnt - start)

/-- Reading a Phoenix coupler (uni_bus_coupler_io.cpp lines 775-882), from register `start` on; `ev k` is what happens during
the `k`-th exchange.  `analog_dest` and `bit_dest` are `start` and `16 * start` at the beginning of each part. -/
def readPhoenix (b : Buf) (nd : Node) (ev : Nat → Net) (k start : Nat) : Option (Buf × Node × List (List Byte)) :=
  if _h : nd.aiCnt ≤ start then some (b, nd, [])
  else
    let n := part nd.aiCnt start
    match exchange (put b 0 (reqRegs (8000 + start) n)) nd.link nd.num 12 (2 * n + 9) (ev k) with
    | none => none
    | some x =>
      let nd1 := { nd with link := x.talk.link }
      if x.talk.ok ∧ x.buf 7 = 0x04 ∧ (x.buf 8).toNat = 2 * n then
        if start + n ≤ analogSize ∧ 16 * (start + n) ≤ nd.diCnt then
          match readPhoenix x.buf (takeRegs x.buf nd1 start n) ev (k + 1) (start + n) with
          | none => none
          | some r => some (r.1, r.2.1, x.sent ++ r.2.2)
        else none
      else some (x.buf, nd1, x.sent)
termination_by nd.aiCnt - start
decreasing_by simp only [takeRegs, part, maxRegs]; omega

/-! ### Outputs -/

/-- The request that writes digital outputs (uni_bus_coupler_io.cpp lines 251-281). -/
def reqDo (cnt : Nat) (o : Nat → Byte) : List Byte :=
  let n := bytesOf cnt
  [0x73, 0x73, 0, 0, 0, BitVec.ofNat 8 (7 + n), 0, 0x0F, 0, 0, (BitVec.ofNat 8 cnt) >>> 8, BitVec.ofNat 8 cnt, BitVec.ofNat 8 n] ++
    (List.range n).map fun j => packByte fun k => decide (8 * j + k < cnt) && (o (8 * j + k)).getLsbD 0

/-- Writing digital outputs of a WAGO coupler (uni_bus_coupler_io.cpp lines 249-300). -/
def writeDo (b : Buf) (nd : Node) (e : Net) : Option (Ex × Node) :=
  let n := bytesOf nd.doCnt
  if buffSize < 13 + n then none
  else
    (exchange (put b 0 (reqDo nd.doCnt nd.dReq)) nd.link nd.num (n + 13) 12 e).bind fun x =>
      let nd := { nd with link := x.talk.link }
      if x.talk.ok ∧ x.buf 7 = 0x0F then
        some (x, { nd with dCur := fun i => if i < nd.doCnt then nd.dReq i else nd.dCur i })
      else some (x, nd)

/-- The head of a request that writes registers (uni_bus_coupler_io.cpp lines 306-318, 618-630). -/
def headRegs (addr n bytes : Nat) : List Byte :=
  [0x73, 0x73, 0, 0, 0, BitVec.ofNat 8 (7 + bytes), 0, 0x10, BitVec.ofNat 8 (addr / 256), BitVec.ofNat 8 addr,
   BitVec.ofNat 8 (n / 256), BitVec.ofNat 8 n, BitVec.ofNat 8 bytes]

/-- High byte and low byte. -/
def be (v : BitVec 16) : List Byte := [v.extractLsb' 8 8, v.extractLsb' 0 8]

/-- The bytes for the analog outputs of a WAGO coupler (uni_bus_coupler_io.cpp lines 320-341). -/
def aoBytes (cnt : Nat) (ty : Nat → Nat) (o : Nat → BitVec 16) : List Byte :=
  (List.range cnt).flatMap fun i => if ty i = 638 then [0, 0, 0, 0] else be (o i)

/-- Writing analog outputs of a WAGO coupler (uni_bus_coupler_io.cpp lines 302-360). -/
def writeAo (b : Buf) (nd : Node) (e : Net) : Option (Ex × Node) :=
  let data := aoBytes nd.aoCnt nd.aoType nd.aReq
  if buffSize < 13 + data.length ∨ analogSize < nd.aoCnt then none
  else
    (exchange (put (put b 0 (headRegs 0 (nd.aoSize / 2) nd.aoSize)) 13 data) nd.link nd.num (nd.aoSize + 13) 12 e).bind fun x =>
      let nd := { nd with link := x.talk.link }
      if x.talk.ok ∧ x.buf 7 = 0x10 then some (x, { nd with aCur := nd.aReq }) else some (x, nd)

/-- `ao_module_type` and `ao_module_offset` at register `i` (uni_bus_coupler_io.cpp lines 369-370, 403-437). -/
def modState (ty : Nat → Nat) (i : Nat) : Nat × Nat :=
  let s := match i with
    | 0 => (0, 0)
    | j + 1 => modState ty j
  let s := if ty i ≠ s.1 then (ty i, 0) else (s.1, s.2 + 1)
  if isIol s.1 then (s.1, s.2 % 32) else if s.1 = 2688093 then (s.1, s.2 % 14) else s

/-- Modules with analog outputs (uni_bus_coupler_io.cpp lines 439-442). -/
def isAo (ty : Nat) : Bool := ty == 2688527 || ty == 2702072 || ty == 1088123 || ty == 2688666

/-- Sixteen digital outputs as two bytes (uni_bus_coupler_io.cpp lines 393-402). -/
def bitBytes (o : Nat → Byte) (i : Nat) : List Byte :=
  [packByte fun k => (o (16 * i + k)).getLsbD 0, packByte fun k => (o (16 * i + 8 + k)).getLsbD 0]

/-- The two bytes of register `i` of a Phoenix coupler (uni_bus_coupler_io.cpp lines 393-453). -/
def regBytes (nd : Node) (i : Nat) : List Byte :=
  let s := modState nd.aoType i
  if isIol s.1 then
    if 2 < s.2 then [(nd.aReq i).extractLsb' 0 8, (nd.aReq i).extractLsb' 8 8] else bitBytes nd.dReq i
  else if s.1 = 2688093 then (if s.2 = 0 then [5, 5] else [0, 0])
  else if isAo s.1 then be (nd.aReq i)
  else bitBytes nd.dReq i

/-- One part of the outputs: the request. -/
def reqOut (nd : Node) (start n : Nat) : List Byte :=
  headRegs (9000 + start) n (2 * n) ++ (List.range n).flatMap fun j => regBytes nd (start + j)

/-- The confirmed part (uni_bus_coupler_io.cpp lines 461-462). -/
def confirm (nd : Node) (start n : Nat) : Node :=
  { nd with
    aCur := fun i => if start ≤ i ∧ i < start + n then nd.aReq i else nd.aCur i
    dCur := fun i => if 16 * start ≤ i ∧ i < 16 * (start + n) then nd.dReq i else nd.dCur i }

/-- The node after the exchange of one part. -/
def settle (x : Ex) (nd : Node) (start n : Nat) : Node :=
  if x.talk.ok ∧ x.buf 7 = 0x10 then confirm { nd with link := x.talk.link } start n else { nd with link := x.talk.link }

theorem settle_aoCnt (x : Ex) (nd : Node) (start n : Nat) : (settle x nd start n).aoCnt = nd.aoCnt := by
  unfold settle; split <;> rfl

/-- Writing a Phoenix coupler (uni_bus_coupler_io.cpp lines 366-493): a part that fails does not stop the others. -/
def writePhoenix (b : Buf) (nd : Node) (ev : Nat → Net) (k start : Nat) : Option (Buf × Node × List (List Byte)) :=
  if _h : nd.aoCnt ≤ start then some (b, nd, [])
  else
    let n := part nd.aoCnt start
    if start + n ≤ analogSize ∧ 16 * (start + n) ≤ nd.doCnt then
      match exchange (put b 0 (reqOut nd start n)) nd.link nd.num (2 * n + 13) 12 (ev k) with
      | none => none
      | some x =>
        match writePhoenix x.buf (settle x nd start n) ev (k + 1) (start + n) with
        | none => none
        | some r => some (r.1, r.2.1, x.sent ++ r.2.2)
    else none
termination_by nd.aoCnt - start
decreasing_by simp only [settle_aoCnt, part, maxRegs]; omega

/-! ### Channels of devices -/

/-- The state of an IO-Link device (bus_coupler_io.h lines 41-46). -/
inductive IolState where
  | ok | notConnected | deviceError
  deriving DecidableEq, Repr

/-- `get_AI_IOLINK_state` and `get_AO_IOLINK_state` (bus_coupler_io.cpp lines 588-625) of a channel with the logical port
`port`, whose module begins with the words `w0`, `w1` (none: no module is set): the words are read as one number. -/
def iolState (phoenix : Bool) (module : Option (BitVec 16 × BitVec 16)) (port : Int) : IolState :=
  match phoenix, module with
  | true, some (w0, w1) =>
    let m : BitVec 32 := w1 ++ w0
    if 0 < port ∧ port ≤ 8 then
      if m.getLsbD (port.toNat - 1) = false then .notConnected
      else if m.getLsbD (port.toNat + 7) = false then .deviceError
      else .ok
    else .ok
  | _, _ => .ok

/-- The places of the channels of a device: `init` and `init_channel` (bus_coupler_io.cpp lines 804-941).  `none`: not set, or
outside of the node. -/
abbrev Places := List (Option (Nat × Nat))

/-- Size of the tables of the nodes: how many there are, and the count of a node. -/
abbrev Sizes := List Nat

/-- `get_DI_read_data`, `get_DO_write_data` (bus_coupler_io.cpp lines 1008-1040, 1075-1090): an existing place of digital
channels. -/
def digitalPlace (sz : Sizes) (node off : Nat) : Option (Nat × Nat) :=
  match sz[node]? with
  | some n => if off < n then some (node, off) else none
  | none => none

/-- `get_AI_read_data`, `get_AO_write_data` (bus_coupler_io.cpp lines 1042-1073, 1092-1107): the size of the array, not the
number of channels, is the limit. -/
def analogPlace (sz : Sizes) (node off : Nat) : Option (Nat × Nat) :=
  match sz[node]? with
  | some _ => if off < analogSize then some (node, off) else none
  | none => none

/-- `init_channel`: a channel number that does not exist changes nothing. -/
def initChannel (p : Places) (ch : Nat) (place : Option (Nat × Nat)) : Places :=
  if ch < p.length then p.set ch place else p

/-- The outputs to write of all nodes. -/
abbrev Image := Nat → Nat → Byte

/-- `set_DO` (bus_coupler_io.cpp lines 68-90): the image and the returned value. -/
def setDo (p : Places) (m : Image) (idx : Nat) (v : Byte) : Image × Nat :=
  match p[idx]? with
  | some (some (nd, off)) => (fun i j => if i = nd ∧ j = off then v else m i j, 0)
  | _ => (m, 1)

/-- `get_DO` and `get_DI` (bus_coupler_io.cpp lines 43-66, 92-117). -/
def getBit (p : Places) (m : Image) (idx : Nat) : Byte :=
  match p[idx]? with
  | some (some (nd, off)) => m nd off
  | _ => 0

/-- The module type of an analog channel, as `get_AI`, `get_AO` and `set_AO` look it up (bus_coupler_io.cpp lines 128-130,
304-306, 362-364) in the node with `types`: an offset behind the channels of the node is undefined; `some none`: the channel
is not set. -/
def moduleType (p : Places) (types : List (List Nat)) (idx : Nat) : Option (Option Nat) :=
  match p[idx]? with
  | some (some (nd, off)) => ((types[nd]?).bind fun l => l[off]?).map some
  | _ => some none

end Ptusa.Coupler
