import Verif.Analog.Model

/-!
# Analog sensors and the control valve with IO-Link

Model of `AI1` (PAC/common/device/base.cpp lines 688-751), `level` (base.cpp lines 753-791), `temperature_e` and
`temperature_e_analog` (PAC/common/device/device.cpp lines 1634-1718), `pressure_e` (device.cpp lines 2856-2873), `analog_input`
(device.cpp lines 3432-3448), and of `analog_valve_iolink` (PAC/common/device/valve.cpp lines 2515-2655,
PAC/common/device/valve.h lines 1095-1153).

Simplifications: not the emulator; values of the sensors are rationals without rounding.  A `float` of the control valve is its bit
pattern; the machine is little-endian.
-/
namespace Ptusa.AnaDev
open Analog

/-! ## Sensors -/

/-- The analog input of a device. -/
inductive Channel where
  /-- no channel was configured, or its node is missing -/
  | unbound
  | module (m : InModule) (raw : Int)
  /-- a module that `get_AI` does not know -/
  | other (raw : Int)
  deriving DecidableEq, Repr

/-- `ERRORS` (bus_coupler_io.h lines 47-55). -/
def code : AiErr → Int
  | .noErr => 0
  | .under => 2
  | .over => 3
  | .out => 4

/-- `get_AI` (bus_coupler_io.cpp lines 361-552): value and error. -/
def read (c : Channel) (min max : Rat) : Rat × Int :=
  match c with
  | .unbound => (0, 100)
  | .module m raw => ((getAI m raw min max).1, code (getAI m raw min max).2)
  | .other raw => (raw, 0)

/-- `AI1::get_state` (base.cpp lines 697-709). -/
def ai1State (c : Channel) : Int := if 0 < (read c 0 0).2 then -(read c 0 0).2 else 1

/-- `AI1::get_value` (base.cpp lines 716-725) with the range of the class: 0 to 100 for a level, the parameters for `pressure_e` and
`analog_input`. -/
def ai1Value (c : Channel) (zero min max : Rat) : Rat := zero + (read c min max).1

/-- `(int)` of a float. -/
def trunc (q : Rat) : Int := if 0 ≤ q then ⌊q⌋ else ⌈q⌉

/-- `level::get_volume` (base.cpp lines 756-768). -/
def levelVolume (c : Channel) (zero err : Rat) : Int :=
  if ai1State c < 0 then trunc err else trunc (ai1Value c zero 0 100)

/-- `temperature_e::get_value` (device.cpp lines 1642-1655). -/
def teValue (c : Channel) (zero err : Rat) : Rat :=
  let v := (read c 0 0).1
  if -1000 = v then err else zero + v

/-- `temperature_e::get_state` (device.cpp lines 1657-1668). -/
def teState (c : Channel) : Int := if -1000 = (read c 0 0).1 then -1 else 1

/-- `temperature_e_analog::get_value` (device.cpp lines 1681-1700). -/
def teaValue (c : Channel) (zero err min max : Rat) : Rat :=
  if (read c 0 0).1 < 0 then err else zero + (read c min max).1

/-- `temperature_e_analog::get_state` (device.cpp lines 1702-1716). -/
def teaState (c : Channel) : Int := if (read c 0 0).1 < 0 then -1 else 0

/-! ## The control valve -/

abbrev Byte := BitVec 8

/-- Where `out_info` points to. -/
inductive Ptr where
  /-- `stub_out_info`, one for all valves -/
  | stub
  | null
  | at (p : Nat)
  deriving DecidableEq, Repr

/-- Members of a valve: `out_info`, the bytes of `in_info`, `blink`. -/
structure Vc where
  ptr : Ptr := .stub
  info : Nat → Byte := fun _ => 0
  blink : Bool := false

/-- Output image, stub and valves. -/
structure Sys where
  out : Nat → Byte
  stub : Nat → Byte
  vc : Nat → Vc

/-- Where the data of a valve are in the images; `none`: no channel. -/
structure Conf where
  outAt : Nat → Option Nat
  inAt : Nat → Option Nat

/-- Bytes of a float in memory, after the swap (valve.cpp lines 2607-2612): the highest first. -/
def bytesOf (f : BitVec 32) : Nat → Byte
  | 0 => f.extractLsb' 24 8
  | 1 => f.extractLsb' 16 8
  | 2 => f.extractLsb' 8 8
  | _ => f.extractLsb' 0 8

/-- Replacement of `n` bytes. -/
def put (m : Nat → Byte) (p n : Nat) (b : Nat → Byte) : Nat → Byte := fun q => if p ≤ q ∧ q < p + n then b (q - p) else m q

/-- Order of the bytes after the swaps (valve.cpp lines 2555-2560). -/
def swapAt (k : Nat) : Nat := if k < 4 then 3 - k else if k < 8 then 11 - k else k

/-- `evaluate_io` (valve.cpp lines 2528-2560) with the input image. -/
def evaluate (c : Conf) (s : Sys) (i : Nat) (input : Nat → Byte) : Sys :=
  let ptr := match c.outAt i with
    | none => Ptr.null
    | some p => .at p
  let info := match c.inAt i with
    | none => (s.vc i).info
    | some p => fun k => if k < 10 then input (p + swapAt k) else (s.vc i).info k
  { s with vc := fun j => if j = i then { s.vc i with ptr := ptr, info := info } else s.vc j }

/-- `direct_set_value` (valve.cpp lines 2603-2613); `none`: undefined behaviour. -/
def setValue (s : Sys) (i : Nat) (f : BitVec 32) : Option Sys :=
  match (s.vc i).ptr with
  | .stub => some { s with stub := put s.stub 0 4 (bytesOf f) }
  | .null => none
  | .at p => some { s with out := put s.out p 4 (bytesOf f) }

/-- A byte with another `wink`: the highest bit (valve.h lines 1140-1145). -/
def winkByte (b : Byte) (on : Bool) : Byte := if on then b ||| 0x80#8 else b &&& 0x7F#8

/-- `set_cmd` with `BLINK` (valve.cpp lines 2638-2645). -/
def setBlink (s : Sys) (i : Nat) (on : Bool) : Option Sys :=
  let vc := fun j => if j = i then { s.vc i with blink := on } else s.vc j
  match (s.vc i).ptr with
  | .stub => some { s with stub := put s.stub 4 1 fun _ => winkByte (s.stub 4) on, vc := vc }
  | .null => none
  | .at p => some { s with out := put s.out (p + 4) 1 fun _ => winkByte (s.out (p + 4)) on, vc := vc }

/-- The value 100 (`FULL_OPENED`) as a float. -/
def f100 : BitVec 32 := 0x42C80000#32

/-- Calls. -/
inductive Ev where
  | evaluate (i : Nat) (input : Nat → Byte)
  | set (i : Nat) (f : BitVec 32)
  /-- `direct_on` (valve.cpp lines 2589-2594) -/
  | on (i : Nat)
  /-- `direct_off` (valve.cpp lines 2596-2601) -/
  | off (i : Nat)
  | blink (i : Nat) (on : Bool)

/-- One call. -/
def step (c : Conf) (s : Sys) : Ev → Option Sys
  | .evaluate i input => some (evaluate c s i input)
  | .set i f => setValue s i f
  | .on i => setValue s i f100
  | .off i => setValue s i 0
  | .blink i on => setBlink s i on

/-- A history. -/
def run (c : Conf) (s : Sys) : List Ev → Option Sys
  | [] => some s
  | e :: h => (step c s e).bind fun s => run c s h

/-- The float in four bytes of `in_info`, in the order of the machine. -/
def floatAt (v : Vc) (k : Nat) : BitVec 32 := v.info (k + 3) ++ v.info (k + 2) ++ v.info (k + 1) ++ v.info k

/-- `get_value` (valve.cpp lines 2615-2620). -/
def Vc.value (v : Vc) : BitVec 32 := floatAt v 0

/-- `get_state` (valve.cpp lines 2622-2627): six bits. -/
def Vc.state (v : Vc) : Nat := (v.info 9).toNat % 64

/-- `opened` (valve.h line 1135) -/
def Vc.opened (v : Vc) : Bool := (v.info 9).getLsbD 6

/-- `closed` (valve.h line 1136) -/
def Vc.closed (v : Vc) : Bool := (v.info 9).getLsbD 7

/-- After the start: nothing is set, a valve is reported closed (valve.cpp lines 2515-2520). -/
def init : Sys := { out := fun _ => 0, stub := fun _ => 0, vc := fun _ => { info := fun k => if k = 9 then 0x80 else 0 } }

end Ptusa.AnaDev
