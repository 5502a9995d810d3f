import Verif.Valve.Model

/-!
# IO-Link valves with one control head: ThinkTop, SORIO and T.VIS A-15

Models `valve_iolink_shut_off_thinktop` (PAC/common/device/valve.cpp 2013-2203, valve.h 709-776),
`valve_iolink_shut_off_sorio` (valve.cpp 1514-1721, valve.h 779-839) and `valve_iolink_gea_tvis_a15` with its single seat and
double seat classes (valve.cpp 1724-2010, valve.h 842-936), on the bytes of their process data, outside the emulator.

Simplifications. The byte of the output image is the one that `out_info` points to (the additional offset is applied). The
bit fields are laid out as GCC does it: from the lowest bit, a field of 16 bits never crosses a boundary of 16 bits. The output
stub is static, shared by the valves of a class; here every valve has its own: it only matters for `start_switch_time`.
`0.1f * pos` is the exact tenth.
-/
namespace Ptusa.IolValve

open Ptusa.Valve (Tm inTime passed toUnsigned)

abbrev Byte := BitVec 8

/-- The classes: single seat and double seat for the last two. -/
inductive Kind
  | thinktop | sorio | tvisSs | tvisDs
  deriving DecidableEq

/-- Where `out_info` points to. -/
inductive Ptr
  | stub | null | image
  deriving DecidableEq

/-- A valve: the pointer, the byte of the output image, the stub, the input data (`pos` and the 16 bits of flags, after the
exchange of bytes), the state of the IO-Link port, `start_switch_time` and `blink`. -/
structure V where
  ptr : Ptr
  img : Byte
  stub : Byte
  pos : BitVec 16
  flags : BitVec 16
  ioOk : Bool
  start : Tm
  blink : Bool
  deriving DecidableEq

/-- `out_info` after the constructor: the stub (valve.h 765, 836), for T.VIS a null pointer (valve.cpp 1726, 1899, 1946). -/
def Kind.ptr0 : Kind → Ptr
  | .thinktop | .sorio => .stub
  | _ => .null

/-- The four bytes of the process data. -/
abbrev Data := Byte × Byte × Byte × Byte

/-- The exchange of bytes in `evaluate_io`: valve.cpp 2045-2050 and 1548-1553 (both words), 1757-1759 (the second word).
On the controller a word of two bytes has its low byte first. T.VIS: `pos` has 10 bits. -/
def Kind.decode (k : Kind) (d : Data) : BitVec 16 × BitVec 16 :=
  match k with
  | .thinktop | .sorio => (d.1 ++ d.2.1, d.2.2.1 ++ d.2.2.2)
  | _ => ((d.2.2.1 ++ d.2.2.2) &&& 0x3FF, d.2.1 ++ d.1)

/-- The byte `out_info` points to; `none` for the null pointer. -/
def V.out (v : V) : Option Byte :=
  match v.ptr with
  | .stub => some v.stub
  | .null => none
  | .image => some v.img

/-- A write to that byte. -/
def V.write (v : V) (b : Byte) : V :=
  match v.ptr with
  | .stub => { v with stub := b }
  | .null => v
  | .image => { v with img := b }

/-- The bits of the solenoids in the output byte: valve.h 753-761, 823-832, 887-897. -/
def Kind.mask : Kind → Byte
  | .thinktop => 0x10
  | .sorio => 0x01
  | _ => 0x07

/-- The bit of the main solenoid. -/
def Kind.main : Kind → Byte
  | .thinktop => 0x10
  | _ => 0x01

/-- The bit of the visual indication (`wink`). T.VIS has none. -/
def Kind.wink : Kind → Byte
  | .thinktop => 0x80
  | .sorio => 0x08
  | _ => 0x00

/-- A flag of the input data. -/
def V.flag (v : V) (i : Nat) : Bool := v.flags.getLsbD i

/-- `in_info->main` (thinktop, sorio), and all three pilots of T.VIS: the condition of `direct_on` which does not restart the
time (valve.cpp 2137, 1647, 1816). -/
def V.there (k : Kind) (v : V) : Bool :=
  match k with
  | .thinktop | .sorio => v.flag 1
  | _ => v.flag 8 && v.flag 9 && v.flag 10

/-- `direct_on` (valve.cpp 2133-2143, 1643-1653, 1810-1823). -/
def V.on (k : Kind) (now : Tm) (v : V) : Option V :=
  match v.out with
  | none => none
  | some b =>
    let v := if v.there k then v else { v with start := now }
    some (v.write ((b &&& ~~~ k.mask) ||| k.main))

/-- `direct_off` (valve.cpp 2145-2155, 1655-1665, 1794-1807). -/
def V.off (k : Kind) (now : Tm) (v : V) : Option V :=
  match v.out with
  | none => none
  | some b =>
    let v := if b &&& k.mask ≠ 0 then { v with start := now } else v
    some (v.write (b &&& ~~~ k.mask))

/-- `direct_set_state` (valve.cpp 2184-2203, 1694-1720, 1919-1941, 1981-2010). -/
def V.set (k : Kind) (now : Tm) (n : Int) (v : V) : Option V :=
  if n = 0 then v.off k now
  else if n = 1 then v.on k now
  else if k = .tvisDs ∧ n = 2 then
    (v.off k now).bind fun v => v.out.map fun b => v.write (b ||| 0x04)
  else if k = .tvisDs ∧ n = 3 then
    (v.off k now).bind fun v => v.out.map fun b => v.write (b ||| 0x02)
  else v.on k now

/-- `set_cmd( "BLINK" )` (valve.cpp 2157-2181, 1667-1691); nothing for T.VIS. -/
def V.wink (k : Kind) (on : Bool) (v : V) : Option V :=
  match k with
  | .thinktop | .sorio => v.out.map fun b =>
      { v.write (if on then b ||| k.wink else b &&& ~~~ k.wink) with blink := on }
  | _ => some v

/-- `evaluate_io` (valve.cpp 2031-2051, 1538-1553, 1742-1759): `ao`: the output channel exists, `ai`: the input data if the
channel exists, `ok`: the state of the port from now on. T.VIS copies from a null pointer without the input channel. -/
def V.cycle (k : Kind) (ao : Bool) (ai : Option Data) (ok : Bool) (v : V) : Option V :=
  let v := { v with ioOk := ok }
  match k with
  | .thinktop | .sorio =>
    let v := { v with ptr := if ao then .image else .null }
    match ai with
    | none => some v
    | some d => some { v with pos := (k.decode d).1, flags := (k.decode d).2 }
  | _ =>
    if ao then match ai with
      | none => none
      | some d => some { v with ptr := .image, pos := (k.decode d).1, flags := (k.decode d).2 }
    else some v

/-- What happens to a valve. -/
inductive Ev
  | cycle (ao : Bool) (ai : Option Data) (ok : Bool)
  | on (now : Tm)
  | off (now : Tm)
  | set (now : Tm) (n : Int)
  | wink (on : Bool)
  deriving DecidableEq

/-- One event; `none`: a null pointer is used. -/
def V.step (k : Kind) (v : V) : Ev → Option V
  | .cycle ao ai ok => v.cycle k ao ai ok
  | .on t => v.on k t
  | .off t => v.off k t
  | .set t n => v.set k t n
  | .wink b => v.wink k b

/-- A history. -/
def V.run (k : Kind) (v : V) : List Ev → Option V
  | [] => some v
  | e :: es => (v.step k e).bind fun v => v.run k es

/-- `get_valve_state` (valve.cpp 2019-2029, 1525-1536, 1908-1917, 1968-1979). -/
def V.state (k : Kind) (v : V) : Int :=
  match k with
  | .thinktop | .sorio => if v.flag 0 then 0 else if v.flag 1 then 1 else 0
  | .tvisSs => if v.flag 8 then 1 else 0
  | .tvisDs =>
    if v.flag 8 && !v.flag 9 && !v.flag 10 then 1
    else if !v.flag 8 && !v.flag 9 && v.flag 10 then 2
    else if !v.flag 8 && v.flag 9 && !v.flag 10 then 3
    else 0

/-- `err`, `status`, `error_on`. -/
def V.err (k : Kind) (v : V) : Bool :=
  match k with
  | .thinktop => v.flags.extractLsb' 8 5 ≠ 0
  | .sorio => v.flags.extractLsb' 4 4 ≠ 0
  | _ => v.flag 11

/-- The end of `get_fb_state`, when the time has passed (valve.cpp 2110-2113, 1623-1626, 1845-1862). -/
def V.confirms (k : Kind) (b : Byte) (v : V) : Bool :=
  let sv1 := decide (b &&& k.main ≠ 0)
  match k with
  | .thinktop => (!sv1 && v.flag 0 && v.flag 4) || (sv1 && v.flag 1 && v.flag 4)
  | .sorio => (!sv1 && v.flag 0) || (sv1 && v.flag 1)
  | _ =>
    if 1 < (v.flag 8).toNat + (v.flag 9).toNat + (v.flag 10).toNat then false
    else (!v.flag 8 && !v.flag 9 && !v.flag 10 && v.flag 0 && v.flag 3) || (v.flag 8 && v.flag 1) || v.flag 9 ||
      (v.flag 10 && v.flag 0 && v.flag 3)

/-- `get_fb_state` (valve.cpp 2092-2114, 1604-1627, 1825-1863); T.VIS: also `SUP`. The output is not read by T.VIS. -/
def V.fb (k : Kind) (now : Tm) (pOn : Fl) (v : V) : Option Bool :=
  if !v.ioOk then some false
  else if v.err k then some false
  else match k with
    | .thinktop | .sorio =>
      if inTime now v.start pOn then some true else v.out.map fun b => v.confirms k b
    | _ =>
      if v.flag 4 then some false
      else if inTime now v.start pOn then some true
      else some (v.confirms k 0)

/-- `valve::get_state` (valve.cpp 107-285) for a valve with both feedbacks. -/
def V.shown (k : Kind) (now : Tm) (pOn pFb : Fl) (manual : Bool) (v : V) : Option Int :=
  let s := v.state k
  let fbOff := pFb.eq (.num 0)
  if s = 3 then some (if manual then 23 else if fbOff then 33 else 3)
  else if s = 2 then some (if manual then 22 else if fbOff then 32 else 2)
  else if s = 1 then
    if fbOff then some (if manual then 31 else 11)
    else (v.fb k now pOn).bind fun f =>
      if f then some (if manual then 21 else 1)
      else (toUnsigned 64 pOn).map fun p =>
        if passed now v.start > p then (if manual then -12 else -2) else (if manual then 42 else 40)
  else
    if fbOff then some (if manual then 30 else 10)
    else (v.fb k now pOn).bind fun f =>
      if f then some (if manual then 20 else 0)
      else (toUnsigned 64 pOn).map fun p =>
        if passed now v.start > p then (if manual then -13 else -3) else (if manual then 43 else 41)

/-- `get_value` (valve.cpp 2116-2121, 1599-1602, 1776-1784): `pos` is signed, for T.VIS it is a field of 10 bits. -/
def V.value (v : V) : Rat := (v.pos.toInt : Rat) / 10

/-- `get_on_fb_value` and `get_off_fb_value` (valve.cpp 2118-2131, 1629-1641, 1865-1893). -/
def V.onFb (k : Kind) (v : V) : Option Bool :=
  match k with
  | .thinktop => v.out.map fun b => decide (b &&& k.main ≠ 0) && v.flag 1 && v.flag 4
  | .sorio => some (v.flag 8)
  | _ => some (if 1 < (v.flag 8).toNat + (v.flag 9).toNat + (v.flag 10).toNat then false else v.flag 8 && v.flag 1)
@[inherit_doc V.onFb] def V.offFb (k : Kind) (v : V) : Option Bool :=
  match k with
  | .thinktop => v.out.map fun b => decide (b &&& k.main = 0) && v.flag 0 && v.flag 4
  | .sorio => some (!v.flag 8)
  | _ => some (!v.flag 8 && !v.flag 9 && !v.flag 10 && v.flag 0 && v.flag 3)

end Ptusa.IolValve
