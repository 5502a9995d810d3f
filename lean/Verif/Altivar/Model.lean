import Verif.MbClient.Model
import Verif.Timer.Model
import Verif.Base.Fl
import Mathlib.Data.Rat.Floor

/-!
# Frequency converters of type Altivar

Model of `altivar_node` (PAC/IoT/iot_altivar.cpp, iot_altivar.h) over the Modbus client (`Verif.MbClient`) and of
`motor_altivar` (PAC/common/device/device.cpp lines 3729-3953) outside the emulator.  Clock and network are parameters.
Simplification: floats are exact (`Fl`), all reads of the clock within one `Evaluate` give the same time.
-/
namespace Ptusa.Altivar
open MbClient (St Byte UInt Net Link)
open Timer (Tm)

/-- `RUN_STEP` (iot_altivar.h lines 53-61). -/
inductive Run where
  | check
  | config
  | init
  | query
  | initEnd
  | finish
deriving DecidableEq

/-- `altivar_node` (iot_altivar.h lines 9-102).  `cmd` is an `int` that only ever holds 0, 1, 2 or 4. -/
structure Node where
  mc : St
  a320 : Bool
  configure : Bool := true
  step : Run := .check
  cstep : Nat := 0
  enabled : Bool := true
  qtimer : Tm
  mtimeout : Tm
  mberr : Bool := false
  reverse : Bool := false
  cmd : BitVec 16 := 4
  state : Int := 0
  remote : Int := 0
  rpm : Int := 0
  frq : Rat := 0
  amp : Rat := 0
  frqMax : Rat := 120
  frqSet : Fl := .num 0

/-- The constructor (iot_altivar.cpp lines 101-124). -/
def Node.initial (a320 : Bool) (junk : MbClient.Buf) (t0 : Tm) : Node :=
  { mc := { cl := MbClient.Cl.initial junk }, a320 := a320, qtimer := t0, mtimeout := t0 }

/-- `zero_output_buff( p )`, `set_station( st )` and `set_int2( k + i, l[ i ] )` in turn (iot_altivar.cpp lines 155-162 and
others). -/
def fill (c : MbClient.Cl) (p : Nat) (st : Byte) (k : UInt) (l : List (BitVec 16)) : MbClient.Cl :=
  (l.zipIdx).foldl (fun c (v, i) => c.setInt2 (k + BitVec.ofNat 32 i) v)
    { c with buf := MbClient.zeroFrom p c.buf, station := st }

/-- The registers prepared in the even steps of the configuration (iot_altivar.cpp lines 154-262). -/
def cfgData : Nat → Option (List (BitVec 16))
  | 0 => some [8501, 8502, 0, 0, 0, 0]
  | 2 => some [3201, 8604, 3202, 3104, 3204, 0]
  | 4 => some [1]
  | 6 => some [3]
  | 8 => some [169]
  | 10 => some [30]
  | 12 => some [1, 0, 210]
  | 14 => some [1]
  | _ => none

/-- The requests of the odd steps and the next step (iot_altivar.cpp lines 165-268). -/
def cfgReq : Nat → Option (MbClient.Req × Nat)
  | 1 => some (.writeRegs 15421 6, 2)
  | 3 => some (.writeRegs 15401 6, 4)
  | 5 => some (.writeRegs 64239 1, 6)
  | 7 => some (.writeRegs 8401 1, 8)
  | 9 => some (.writeRegs 8413 1, 10)
  | 11 => some (.writeRegs 8423 1, 12)
  | 13 => some (.writeRegs 7122 3, 14)
  | 15 => some (.writeRegs 8001 1, 99)
  | _ => none

/-- The request of the query (iot_altivar.cpp lines 291-293). -/
def queryReq (a320 : Bool) : MbClient.Req := if a320 then .readWrite 1 6 1 6 else .readWrite 0 6 0 6

/-- Conversion to `int`: towards zero; undefined when it does not fit. -/
def toInt : Fl → Option Int
  | .nan => none
  | .num q =>
    let n := if 0 ≤ q then ⌊q⌋ else ⌈q⌉
    if -2147483648 ≤ n ∧ n ≤ 2147483647 then some n else none

/-- The state of the motor by the status word (iot_altivar.cpp lines 303-324). -/
def decode (rev : Bool) (w : BitVec 16) : Int :=
  if w &&& 0x6F = 0x40 then 0
  else if w &&& 0x6F = 0x21 then 0
  else if w &&& 0x6F = 0x23 then 0
  else if w &&& 0x6F = 0x27 then (if rev then 2 else 1)
  else -1

/-- The values of an answered query (iot_altivar.cpp lines 296-325). -/
def Node.take (s : Node) : Node :=
  let m : Rat := (s.mc.cl.getInt2 3).toInt / 10
  let m := if m < 10 then 10 else m
  let m := if m > 120 then 120 else m
  { s with
    remote := (s.mc.cl.getInt2 0).toInt
    rpm := (s.mc.cl.getInt2 1).toInt
    frq := (s.mc.cl.getInt2 2).toInt / 10
    frqMax := m
    amp := (s.mc.cl.getInt2 4).toInt / 10
    state := decode s.reverse (s.mc.cl.getInt2 0)
    step := .initEnd }

/-- The steps of `Evaluate` (iot_altivar.cpp lines 138-346): the frame that went out, what the call of the client returned
(0 without a call) and the new state. -/
def Node.run (s : Node) (now : Tm) (n1 n2 : Net) : Option (Option (List Byte) × Int × Node) :=
  match s.step with
  | .check =>
    if s.configure ∧ s.a320 then some (none, 0, { s with cstep := 0, step := .config })
    else some (none, 0, { s with step := .init })
  | .config =>
    match cfgData s.cstep with
    | some l =>
      some (none, 0, { s with mc := { s.mc with cl := fill s.mc.cl 13 0 0 l }, cstep := s.cstep + 1 })
    | none =>
      match cfgReq s.cstep with
      | some (r, n) =>
        (s.mc.call r n1 n2).map fun (f, x, mc) =>
          (f, x, if x ≠ 0 then { s with mc := mc, cstep := n } else { s with mc := mc })
      | none =>
        if s.cstep = 99 then some (none, 0, { s with configure := false, step := .init })
        else some (none, 0, { s with cstep := 0 })
  | .init =>
    (toInt (s.frqSet * .num 10)).map fun z =>
      (none, 0, { s with
        mc := { s.mc with cl := fill s.mc.cl 15 255 2 [s.cmd, BitVec.ofInt 16 z, 0, 0, 0, 0] }
        step := .query })
  | .query =>
    (s.mc.call (queryReq s.a320) n1 n2).map fun (f, x, mc) =>
      (f, x,
        let s := { s with mc := mc }
        if x = 1 then s.take
        else if x = -1 then { s with configure := true, step := .check }
        else s)
  | .initEnd => some (none, 0, { s with qtimer := now, step := .finish })
  | .finish =>
    if 200 < Time.deltaMs now s.qtimer then some (none, 0, { s with step := .check }) else some (none, 0, s)

/-- The check of the connection (iot_altivar.cpp lines 349-362). -/
def Node.watch (s : Node) (now : Tm) : Node :=
  let s := if s.mc.link ≠ .on ∧ 5000 < Time.deltaMs now s.mtimeout ∧ s.mberr = false then
      { s with state := -100, mberr := true } else s
  if s.mc.link = .on then { s with mberr := false, mtimeout := now } else s

/-- `Evaluate` (iot_altivar.cpp lines 131-367). -/
def Node.eval (s : Node) (now : Tm) (n1 n2 : Net) : Option (Option (List Byte) × Int × Node) :=
  if s.enabled then (s.run now n1 n2).map fun (f, x, s) => (f, x, s.watch now) else some (none, 0, s)

/-- `set_output_in_percent` (iot_altivar.cpp lines 380-383). -/
def Node.setPercent (s : Node) (v : Fl) : Node := { s with frqSet := v / .num 100 * .num s.frqMax }

/-- `get_output_in_percent` (iot_altivar.cpp lines 385-388). -/
def Node.percent (s : Node) : Fl := s.frqSet / .num s.frqMax * .num 100

/-- `direct_on` (device.cpp lines 3815-3821). -/
def Node.on (s : Node) : Node := { s with cmd := 1, reverse := false }

/-- `direct_off` (device.cpp lines 3823-3836). -/
def Node.off (s : Node) : Node := { s with cmd := if s.state < 0 then 4 else 0, reverse := false }

/-- `direct_set_state` (device.cpp lines 3776-3806) with `Disable` and `Enable` (iot_altivar.cpp lines 369-378). -/
def Node.set (s : Node) (n : Int) : Node :=
  if n = 2 then { s with cmd := 2, reverse := true }
  else if n = 100 then { s with enabled := false }
  else if n = 101 then { s with enabled := true, mberr := false }
  else if n ≠ 0 then s.on
  else s.off

end Ptusa.Altivar
