import Verif.Base.Fl
import Verif.Time.Model
import Mathlib.Data.Rat.Floor

/-!
# Scales: `PAC/common/device/device.cpp`, `PAC/IoT/iot_wages_eth.cpp`
-/
namespace Ptusa.Scales

/-! ### `wages_pxc_axl`: strain gauge module -/

/-- The words of the module in the image (`nd->AI`, `PAC/common/uni_bus_coupler_io.cpp` lines 836-841), what
the device keeps, and its parameters. -/
structure Axl where
  r0 : BitVec 16
  r1 : BitVec 16
  w : Fl
  st : Int
  cz : Fl
  k : Fl
  deriving DecidableEq, Repr

/-- State by the value (device.cpp lines 1990-2023, device.h lines 618-638). -/
def axlState (x : BitVec 32) : Int :=
  if x = 0x80000001 then -1
  else if x = 0x80000002 then -2
  else if x = 0x80000003 then -3
  else if x = 0x80000004 then -4
  else if x = 0x80000020 then -5
  else if x = 0x80000040 then -6
  else if x = 0x80000080 then -7
  else 0

/-- `wages_pxc_axl::evaluate_io` (device.cpp lines 1975-2024): bytes 0, 1 and 2, 3 are exchanged in the
image, then the four bytes are an `int`, low byte first. -/
def Axl.eval (s : Axl) : Axl :=
  let s := { s with r0 := s.r1, r1 := s.r0 }
  let x : BitVec 32 := s.r1 ++ s.r0
  { s with w := .num (1 / 1000) * .num x.toInt * s.k, st := axlState x }

/-- `wages_pxc_axl::tare` (device.cpp lines 2026-2029). -/
def Axl.tare (s : Axl) : Axl := { s with cz := -s.w }

/-- `wages_pxc_axl::reset_tare` (device.cpp lines 2031-2034). -/
def Axl.resetTare (s : Axl) : Axl := { s with cz := 0 }

/-- `wages_pxc_axl::get_value` (device.cpp lines 2036-2039). -/
def Axl.value (s : Axl) : Fl := s.w + s.cz

/-- `recv`: the coupler answered; `cmd`: `direct_set_state` (device.cpp lines 2046-2058). -/
inductive AxlEv where
  | recv (r0 r1 : BitVec 16)
  | eval
  | cmd (n : Int)
  deriving DecidableEq, Repr

def Axl.step (s : Axl) : AxlEv → Axl
  | .recv a b => { s with r0 := a, r1 := b }
  | .eval => s.eval
  | .cmd n => if n = 1 then s.tare else if n = 2 then s.resetTare else s

def Axl.run (s : Axl) (h : List AxlEv) : Axl := h.foldl Axl.step s

/-! ### Numbers in texts -/

abbrev Byte := BitVec 8

/-- A decimal digit. -/
def isDigit (b : Byte) : Bool := decide (48 ≤ b.toNat) && decide (b.toNat ≤ 57)

/-- `isspace`. -/
def isSpace (b : Byte) : Bool := decide (b.toNat = 32) || (decide (9 ≤ b.toNat) && decide (b.toNat ≤ 13))

/-- The number read so far, continued by the digits at the front of the text. -/
def digits (acc : Nat) : List Byte → Nat × List Byte
  | [] => (acc, [])
  | b :: r => if isDigit b then digits (10 * acc + (b.toNat - 48)) r else (acc, b :: r)

/-- The unsigned part of `atof`; `none` when the text has no end in the memory given. -/
def unsignedPart (t : List Byte) : Option Rat :=
  let (i, r) := digits 0 t
  match r with
  | [] => none
  | b :: r' =>
    if b = 46 then
      let (f, r'') := digits i r'
      match r'' with
      | [] => none
      | _ => some ((f : Rat) / 10 ^ (r'.length - r''.length))
    else some i

/-- `atof` on the memory from a place on.  Simplification: no exponents, hexadecimal numbers,
"inf" and "nan". -/
def atof (t : List Byte) : Option Rat :=
  match t.dropWhile isSpace with
  | [] => none
  | b :: r =>
    if b = 45 then (unsignedPart r).map fun q => -q
    else if b = 43 then unsignedPart r
    else unsignedPart (b :: r)

/-! ### `wages_RS232` -/

/-- `mem`: the image of the node from the first byte of the module on; `out`: the word of the command;
`cz`: parameter. -/
structure Rs where
  mem : List Byte
  out : Nat
  value : Fl
  state : Int
  cz : Fl
  deriving DecidableEq, Repr

/-- `std::swap` of two neighbours in the image. -/
def swapAt (m : List Byte) (i : Nat) : List Byte :=
  (m.set i (m.getD (i + 1) 0)).set (i + 1) (m.getD i 0)

/-- `wages_RS232::evaluate_io`, outside the emulator, with `get_value_from_wages` and `set_command`
(device.cpp lines 1801-1866, 1876-1886); `none` when it reads outside the image. -/
def Rs.eval (s : Rs) : Option Rs :=
  if s.mem.length < 12 then none
  else if s.mem.getD 0 0 = 0 ∧ s.mem.getD 1 0 = 0 then some s
  else if s.mem.getD 0 0 = 1 ∧ s.mem.getD 1 0 = 0 then some { s with out := 12288 }
  else
    let s := { s with out := 0 }
    if s.mem.getD 2 0 ≠ (43 : Byte) then some { s with state := -1, value := 0 }
    else
      let m := swapAt (swapAt (swapAt s.mem 6) 8) 10
      match atof (m.drop 6) with
      | none => none
      | some q => some { s with mem := m, state := 1, value := .num q }

/-- `wages_RS232::get_value` (device.cpp lines 1844-1847). -/
def Rs.getValue (s : Rs) : Fl := s.value + s.cz

/-- `recv`: the coupler answered. -/
inductive RsEv where
  | recv (m : List Byte)
  | eval
  deriving DecidableEq, Repr

def Rs.run (s : Rs) : List RsEv → Option Rs
  | [] => some s
  | .recv m :: h => Rs.run { s with mem := m } h
  | .eval :: h =>
    match s.eval with
    | none => none
    | some s => s.run h

/-! ### `wages_eth` -/

/-- `buff` of the client (256 bytes), state and value (`iot_wages_eth.h`), parameter of the device. -/
structure Eth where
  buff : List Byte
  state : Int
  value : Fl
  cz : Fl
  deriving DecidableEq, Repr

/-- `iot_wages_eth::evaluate` with `convert_value` (`iot_wages_eth.cpp` lines 12-19, 41-53): `got` is what
`AsyncRecive` placed at the start of the buffer, empty when its result is not positive. -/
def Eth.eval (s : Eth) (got : List Byte) : Option Eth :=
  if got = [] then some s
  else
    let s := { s with buff := got ++ s.buff.drop got.length }
    if s.buff.getD 8 0 ≠ (107 : Byte) ∨ s.buff.getD 9 0 ≠ (103 : Byte) then some { s with state := 0 }
    else
      match atof (s.buff.drop 1) with
      | none => none
      | some q => some { s with state := 1, value := .num q }

/-- `wages_eth::get_value` (device.cpp lines 1907-1910). -/
def Eth.getValue (s : Eth) : Fl := s.value + s.cz

def Eth.run (s : Eth) : List (List Byte) → Option Eth
  | [] => some s
  | g :: h =>
    match s.eval g with
    | none => none
    | some s => s.run h

/-! ### `wages`: analog scale -/

/-- Parameters of the scale (device.h lines 697-708). -/
structure Par where
  nominal : Fl
  rkp : Fl
  c0 : Fl
  dt : Fl
  deriving DecidableEq, Repr

/-- `weight`, `filter_time` (device.h lines 694-695). -/
structure An where
  weight : Fl
  time : BitVec 64
  deriving DecidableEq, Repr

/-- `fabs`. -/
def flAbs : Fl → Fl
  | .nan => .nan
  | .num q => .num |q|

/-- `ceilf`. -/
def flCeil : Fl → Fl
  | .nan => .nan
  | .num q => .num (⌈q⌉ : Int)

/-- The weight measured now. -/
def Par.measure (p : Par) (ud uref : Fl) : Fl := ud / p.rkp / uref * p.nominal

/-- `wages::get_weight` (device.cpp lines 2080-2101) at the time `now` with the inputs `ud`, `uref`. -/
def An.get (p : Par) (s : An) (now : BitVec 64) (ud uref : Fl) : Fl × An :=
  if 500 < Time.deltaMs now s.time then
    let s := { s with time := now }
    if p.rkp.eq 0 then (.num (-1001), s)
    else if uref.eq 0 then (.num (-1002), s)
    else
      let nw := p.measure ud uref
      let s := if p.dt.lt (flAbs (nw - s.weight)) then { s with weight := nw } else s
      let s := if Fl.le 1 p.dt then { s with weight := flCeil s.weight } else s
      (s.weight + p.c0, s)
  else (s.weight + p.c0, s)

/-- A call of `get_value`: time and inputs. -/
structure Sample where
  now : BitVec 64
  ud : Fl
  uref : Fl
  deriving DecidableEq, Repr

def An.run (p : Par) (s : An) (h : List Sample) : An := h.foldl (fun s x => (s.get p x.now x.ud x.uref).2) s

/-! ### Volume of a tank -/

/-- `10 * ( int )( v * 100 + 0.5f )`: kilograms of `v` cubic metres. -/
def kilograms (v : Rat) : Option Int :=
  let x := v * 100 + 1 / 2
  let t := Int.tdiv x.num x.den
  if -2 ^ 31 ≤ t ∧ t < 2 ^ 31 ∧ -2 ^ 31 ≤ 10 * t ∧ 10 * t < 2 ^ 31 then some (10 * t) else none

/-- `level_e_cyl::calc_volume` (device.cpp lines 2154-2163): radius `r`, `maxP` of the full scale,
level `level` as `get_value` gives it; `pi` is the constant of the compiler. -/
def cylVolume (pi r maxP level : Rat) : Option Int := kilograms (pi * r * r * level * maxP / (981 / 100))

/-- `level_e_cone::calc_volume` (device.cpp lines 2175-2198). -/
def coneVolume (pi r hCone maxP level : Rat) : Option Int :=
  let tg := if 0 < hCone then r / hCone else 0
  let h := maxP * level / (981 / 100)
  let v := if h ≤ hCone then pi * h * tg * h * tg * h / 3 else pi * r * r * (h - hCone * 2 / 3)
  kilograms v

/-- `level_e_iolink::calc_volume` (device.cpp lines 2751-2802) outside the emulator: pressure `p` in bar,
`extra` the pressure above the liquid. -/
def iolVolume (pi r hCone p extra : Rat) : Option Int :=
  let v := p - extra
  if hCone ≤ 0 then kilograms (pi * r * r * v * 100 / (981 / 100))
  else
    let tg := if 0 < hCone then r / hCone else 0
    let h := 100 * v / (981 / 100)
    let val := if h ≤ hCone then pi * h * tg * h * tg * h / 3 else pi * r * r * (h - hCone * 2 / 3)
    kilograms val

end Ptusa.Scales
