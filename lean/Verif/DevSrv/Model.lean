import Verif.Tcp.Model

/-!
# The service of the server: `common/PAC-driver/g_device.{h,cpp}`

`device_communicator::write_devices_states_service` (`g_device.cpp:38-316`), run as service 1 of the TCP
communicator (`lua_manager.cpp:338-339`). The texts made by other components, the result of a Lua command
and the compressor are parameters.
-/
namespace Ptusa.DevSrv

open Ptusa.Tcp (Byte)

/-- The static variables (`g_device.cpp:52,192,203-204,217`): id of the device list, id of the alarm
list, the ids of the two error managers at the last poll and when alarms were first polled. -/
structure St where
  reqId     : BitVec 16
  errorsId  : BitVec 16
  prevPac   : BitVec 16
  prevDev   : BitVec 16
  firstPoll : Option (BitVec 64)
  deriving DecidableEq, Repr

/-- What the rest of the controller answers during one call. -/
structure Env where
  now        : BitVec 64
  /-- Text of `CMD_GET_INFO_ON_CONNECT` without the final zero. -/
  info       : List Byte
  /-- What `save_device` of each registered device writes. -/
  devs       : List (List Byte)
  /-- Result of `exec_Lua_str` and of `parseDriverCmd` for a command text. -/
  lua        : List Byte → BitVec 32
  recman     : List Byte → BitVec 32
  /-- Critical errors of the controller: text and id. -/
  pacErr     : List Byte × BitVec 16
  /-- Alarms of devices and objects: text and id. -/
  devErr     : List Byte × BitVec 16
  /-- Beginning of the alarm list for a project number, and its end for an id. -/
  alarmHead  : Byte → List Byte
  alarmTail  : BitVec 16 → List Byte
  params     : List Byte
  restore    : List Byte → BitVec 32
  crc        : List Byte
  compressOn : Bool
  /-- `compress` of zlib with an output of `BUFSIZE` bytes: `none` unless `Z_OK` and not empty. -/
  compress   : List Byte → Option (List Byte)

/-- A text in memory, up to the first zero; at most `n` bytes are looked at. -/
def cstr (m : Nat → Byte) : Nat → Nat → List Byte
  | _, 0 => []
  | i, n + 1 => if m i = 0 then [] else m i :: cstr m (i + 1) n

/-- `__RECMAN`. -/
def recmanMark : List Byte := [0x5f, 0x5f, 0x52, 0x45, 0x43, 0x4d, 0x41, 0x4e]

/-- `strstr( str, "__RECMAN" ) != nullptr`. -/
def hasMark : List Byte → Bool
  | [] => false
  | a :: l => recmanMark.isPrefixOf (a :: l) || hasMark l

/-- The two bytes of a `u_int_2` in memory. -/
def bytes2 (v : BitVec 16) : List Byte := [v.extractLsb' 0 8, v.extractLsb' 8 8]

/-- The `u_int_2` at an address. -/
def word (m : Nat → Byte) (i : Nat) : BitVec 16 := m (i + 1) ++ m i

/-- The answer of a command: `outdata[ 0 ]` is 1 on failure, `outdata[ 1 ]` is 0. -/
def cmdAnswer (res : BitVec 32) : List Byte := if res = 0 then [0, 0] else [1, 0]

/-- How many bytes of the buffer a text can occupy: the buffer is zeroed before a request is received
(`l_tcp_cmctr.cpp:778`). -/
def textMax : Nat := Tcp.bufSize - 7

/-- Alarms of devices are shown when there are no critical errors and 5 s after the first poll
(`g_device.cpp:216-221`). -/
def showDev (e : Env) (first : BitVec 64) : Bool :=
  e.pacErr.1.isEmpty && decide ((5000 : BitVec 64) < Time.deltaMs e.now first)

/-- `CMD_GET_PAC_ERRORS` (`g_device.cpp:187-239`). `errors_id` starts at `get_millisec() % 100`. -/
def pollErrors (s : St) (e : Env) (project : Byte) : St × List Byte :=
  let s0 : St := match s.firstPoll with
    | none => { s with errorsId := BitVec.ofNat 16 (e.now.toNat % 100) }
    | some _ => s
  let s1 : St := if e.pacErr.2 ≠ s0.prevPac
    then { s0 with prevPac := e.pacErr.2, errorsId := s0.errorsId + 1 } else s0
  let first := s1.firstPoll.getD e.now
  let s2 : St := { s1 with firstPoll := some first }
  if showDev e first then
    let s3 : St := if e.devErr.2 ≠ s2.prevDev
      then { s2 with prevDev := e.devErr.2, errorsId := s2.errorsId + 1 } else s2
    (s3, e.alarmHead project ++ e.pacErr.1 ++ e.devErr.1 ++ e.alarmTail s3.errorsId ++ [0])
  else (s2, e.alarmHead project ++ e.pacErr.1 ++ e.alarmTail s2.errorsId ++ [0])

/-- The answer before compression (`g_device.cpp:56-292`): the new state and the bytes written.  The
answer is empty for a number that is not in the list. `data` is one byte behind `outdata`: every case
reads what it needs before it writes. -/
def plain (s : St) (e : Env) (data : Nat → Byte) : St × List Byte :=
  match (data 0).toNat with
  | 10 => (s, e.info ++ [0])
  | 100 =>
    let s1 : St := if s.reqId = 0 then { s with reqId := word data 1 } else s
    (s1, bytes2 s1.reqId ++ e.devs.flatten ++ [0])
  | 101 => (s, bytes2 s.reqId ++ e.devs.flatten ++ [0])
  | 102 =>
    let str := cstr data 1 textMax
    (s, cmdAnswer (if hasMark str then e.recman str else e.lua str))
  | 103 => pollErrors s e (data 1)
  | 104 => (s, cmdAnswer (e.lua (cstr data 1 textMax)))
  | 105 => (s, e.params ++ [0])
  | 106 => (s, cmdAnswer (e.restore (cstr data 1 textMax)))
  | 107 => (s, e.crc ++ [0])
  | _ => (s, [])

/-- Compression (`g_device.cpp:295-314`): the returned size and the memory from `outdata` on, of which
the first bytes are replaced. -/
def pack (e : Env) (out : List Byte) : Nat × List Byte :=
  if out.isEmpty || !e.compressOn then (out.length, out)
  else
    match e.compress out with
    | some z => (z.length, z ++ out.drop z.length)
    | none => (2, [0, 0] ++ out.drop 2)

/-- `write_devices_states_service` (`g_device.cpp:38-316`). -/
def serve (s : St) (e : Env) (len : Nat) (data : Nat → Byte) : St × Nat × List Byte :=
  if len < 1 then (s, 0, [])
  else
    let r := plain s e data
    (r.1, pack e r.2)

/-- The same as a service of the communicator. -/
def srv (s : St) (e : Env) : Tcp.Srv := fun len data =>
  let r := serve s e len data
  (BitVec.ofNat 64 r.2.1, r.2.2)

end Ptusa.DevSrv
