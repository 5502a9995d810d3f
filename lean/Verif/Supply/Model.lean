import Verif.Base.Fl
import Verif.Time.Model

/-!
# Electronic fuses: `circuit_breaker` and `power_unit` (`PAC/common/device/device.cpp`), outside the
emulator

Process data lie in the image of the coupler.  Bit fields are laid out as by gcc on the little-endian
processors of the controllers, low bits first.  Channel `i` counts from 0.  The module and the image
exist.
-/
namespace Ptusa.Supply

abbrev Byte := BitVec 8

/-- Bytes from the first one of the channel on. -/
abbrev Img := Nat → Byte

/-! ### `circuit_breaker` (4 channels) -/

/-- `F_data_in` (device.h lines 299-320) without the load currents. -/
structure FIn where
  st : Fin 4 → Bool
  err : Fin 4 → Bool
  cur : Fin 4 → BitVec 4
  v : Byte

/-- The layout: byte 0 has the errors of channels 4 to 1 in bits 0 to 3 and their states in bits 4 to
7; bytes 1 and 2 the nominal currents of channels 2, 1, 4, 3; byte 7 the voltage. -/
def FIn.of (m : Img) : FIn where
  st i := (m 0).getLsbD (7 - i.val)
  err i := (m 0).getLsbD (3 - i.val)
  cur i := (m (1 + i.val / 2)).extractLsb' (if i.val % 2 = 0 then 4 else 0) 4
  v := m 7

/-- `F_data_out` (device.h lines 322-337). -/
structure FOut where
  sw : Fin 4 → Bool
  valid : Bool
  cur : Fin 4 → BitVec 4

/-- The first byte as it is sent: channels 1 to 4 in bits 0 to 3, the valid flag in bit 7. -/
def FOut.byte0 (o : FOut) : Byte :=
  BitVec.ofNat 8 ((o.sw 0).toNat + 2 * (o.sw 1).toNat + 4 * (o.sw 2).toNat + 8 * (o.sw 3).toNat +
    128 * o.valid.toNat)

/-- The device: `in_info`, the output in the image, `is_read_OK`, `v`, `st`, `err`. -/
structure F where
  inp : FIn
  out : FOut
  readOk : Bool
  v : Fl
  st : Int
  err : Int

/-- Constructor (device.cpp lines 3080-3083, device.h 345-352); the output image is zero. -/
def F.init : F :=
  ⟨⟨fun _ => false, fun _ => false, fun _ => 0, 0⟩, ⟨fun _ => false, false, fun _ => 0⟩, false, 0, 0, 0⟩

/-- `circuit_breaker::evaluate_io` (device.cpp lines 3238-3288): the data of the module are `m`, the link
is good if `ok`. -/
def F.eval (s : F) (m : Img) (ok : Bool) : F :=
  let s :=
    if ok then
      if s.readOk then s
      else { s with out := { s.out with sw := s.inp.st, cur := s.inp.cur }, readOk := true }
    else { s with readOk := false }
  let i := FIn.of m
  { s with
    inp := i
    v := .num (1 / 10) * .num i.v.toNat
    st := if i.st 0 || i.st 1 || i.st 2 || i.st 3 then 1 else 0
    err := if i.err 0 || i.err 1 || i.err 2 || i.err 3 then 1 else 0 }

/-- `direct_on`, `direct_off` (device.cpp lines 3177-3211). -/
def F.all (s : F) (b : Bool) : F := { s with out := { s.out with valid := true, sw := fun _ => b } }

/-- `set_cmd( "ST_CH", n, val )` (device.cpp lines 3137-3157). -/
def F.channel (s : F) (n : Nat) (b : Bool) : F :=
  { s with out := { s.out with sw := fun i => if i.val + 1 = n then b else s.out.sw i } }

/-- `get_state` (device.cpp lines 3222-3235); `link` is the number of the state of the link. -/
def F.state (s : F) (link : Int) : Int := if link ≠ 0 then -link else s.st

/-- A cycle or a command. -/
inductive FEv where
  | eval (m : Img) (ok : Bool)
  | all (b : Bool)
  | channel (n : Nat) (b : Bool)

def F.step (s : F) : FEv → F
  | .eval m ok => s.eval m ok
  | .all b => s.all b
  | .channel n b => s.channel n b

def F.run (s : F) (h : List FEv) : F := h.foldl F.step s

/-! ### `power_unit` (8 channels) -/

/-- `process_data_in` (device.h lines 1612-1656) without voltage and load currents. -/
structure GIn where
  sum : Nat
  bad : Bool
  status : Fin 8 → BitVec 2
  cur : Fin 8 → BitVec 3

/-- The layout: bit 4 of byte 0 "DC not OK"; bytes 2 and 3 the sum of currents (2 + 8 bits); bytes 4 and
5 the states, channels 1 and 5 in the highest bits; bytes 6 to 9 the nominal currents. -/
def GIn.of (m : Img) : GIn where
  sum := ((m 2).extractLsb' 0 2).toNat * 256 + (m 3).toNat
  bad := (m 0).getLsbD 4
  status i := (m (4 + i.val / 4)).extractLsb' (6 - 2 * (i.val % 4)) 2
  cur i := (m (6 + i.val / 2)).extractLsb' (if i.val % 2 = 0 then 3 else 0) 3

/-- `process_data_out` (device.h lines 1660-1690). -/
structure GOut where
  valid : Bool
  sw : Fin 8 → Bool
  cur : Fin 8 → BitVec 3

/-- All zero. -/
def GOut.zero : GOut := ⟨false, fun _ => false, fun _ => 0⟩

/-- The device; `at'`: `p_data_out` points to the image `out` (else to the `static` structure
`stub`). -/
structure G where
  inp : GIn
  out : GOut
  stub : GOut
  at' : Bool
  busy : Bool
  t : BitVec 64
  v : Fl
  st : Int
  err : Int

/-- Constructor (device.cpp lines 617-628, device.h 1599-1609); the output image is zero. -/
def G.init : G :=
  ⟨⟨0, false, fun _ => 0, fun _ => 0⟩, .zero, .zero, false, false, 0, 0, 0, 0⟩

/-- `sync_pdout` (device.cpp lines 732-751). -/
def GOut.sync (i : GIn) : GOut := ⟨false, fun k => i.status k != 0, i.cur⟩

/-- `power_unit::evaluate_io` (device.cpp lines 646-730) at the time `now`. -/
def G.eval (s : G) (now : BitVec 64) (m : Img) (ok : Bool) : G :=
  let i := GIn.of m
  let s := { s with
    inp := i
    v := .num (1 / 10) * .num i.sum
    err := if i.bad then 1 else 0
    st := if (List.finRange 8).any (fun k => i.status k != 0) then 1 else 0
    at' := true }
  if ok then
    if s.busy then
      let s := if 300 < Time.deltaMs now s.t then { s with out := { s.out with valid := true } } else s
      if 1000 < Time.deltaMs now s.t then { s with busy := false, out := .sync i } else s
    else { s with out := .sync i }
  else s

/-- Commands: `direct_on`, `direct_off` (device.cpp lines 804-862), `set_cmd( "ST_CH", n, val )` (885-941),
`set_cmd( "NOMINAL_CURRENT_CH", n, val )` (943-1013; `val` is a whole number in the range of
`int8_t`). -/
inductive GCmd where
  | all (b : Bool)
  | channel (n : Nat) (b : Bool)
  | current (n : Nat) (val : Int)
  deriving DecidableEq, Repr

/-- What a command writes. -/
def GOut.apply (o : GOut) : GCmd → GOut
  | .all b => { o with sw := fun _ => b }
  | .channel n b => { o with sw := fun i => if i.val + 1 = n then b else o.sw i }
  | .current n val => { o with cur := fun i => if i.val + 1 = n then BitVec.ofInt 3 val else o.cur i }

/-- A command at the time `now`. -/
def G.cmd (s : G) (now : BitVec 64) (c : GCmd) : G :=
  let s := { s with busy := true, t := now }
  if s.at' then { s with out := s.out.apply c } else { s with stub := s.stub.apply c }

/-- A cycle or a command. -/
inductive GEv where
  | eval (now : BitVec 64) (m : Img) (ok : Bool)
  | cmd (now : BitVec 64) (c : GCmd)

def G.step (s : G) : GEv → G
  | .eval now m ok => s.eval now m ok
  | .cmd now c => s.cmd now c

def G.run (s : G) (h : List GEv) : G := h.foldl G.step s

end Ptusa.Supply
