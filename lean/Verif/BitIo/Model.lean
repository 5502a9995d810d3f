import Verif.Valve.Model

/-!
# Valves that share bytes of an output image

Model of valves on IO-Link terminals, `valve_iol_terminal` (PAC/common/device/valve.cpp lines 2208-2345) and
`valve_iol_terminal_mixproof_DO3` (2421-2510), whose outputs are bits of the bytes of a terminal, and of valves on AS-i,
`valve_AS` (2770-3078), whose outputs are half bytes of the image of a gateway.  Simplifications: the emulator mode is
off; what is read back from an output image is what was written to it.  Writing beyond the image is undefined: `none`.
-/
namespace Ptusa.BitIo

/-- The output images, by number; an image that is not there (null pointer) is empty. -/
abbrev Mem := Nat → List (BitVec 8)

/-- Change of one byte. -/
def change (m : Mem) (b off : Nat) (f : BitVec 8 → BitVec 8) : Option Mem :=
  if off < (m b).length then some fun i => if i = b then (m b).modify off f else m i else none

/-- An output of a terminal valve: which image and the number in it (from 1). -/
structure Addr where
  img : Nat
  id : Nat
  deriving DecidableEq

/-- `set_state_bit` (lines 2251-2256) and `reset_state_bit` (2258-2263). -/
def writeBit (m : Mem) (a : Addr) (on : Bool) : Option Mem :=
  let k := (a.id - 1) % 8
  change m a.img ((a.id - 1) / 8) fun x => if on then x ||| (1#8 <<< k) else x &&& ~~~ (1#8 <<< k)

/-- Writing several outputs in turn. -/
def writeAll (m : Mem) : List (Addr × Bool) → Option Mem
  | [] => some m
  | (a, on) :: l => (writeBit m a on).bind fun m => writeAll m l

/-- The commands. -/
inductive Cmd where
  | off | on | upper | lower
  deriving DecidableEq

/-- Which output of a valve a command switches on (the others are switched off): 0 the valve, 1 upper, 2 lower seat. -/
def Cmd.out : Cmd → Option Nat
  | .off => none
  | .on => some 0
  | .upper => some 1
  | .lower => some 2

/-- `check_config` (lines 2233-2248): every output has an image and a number. -/
def configured (m : Mem) (outs : List Addr) : Bool := outs.all fun a => !(m a.img).isEmpty && decide (a.id > 0)

/-- `direct_on` (lines 2303-2322), `direct_off` (2324-2341), `open_upper_seat` (2435-2451), `open_lower_seat`
(2453-2469): each writes the outputs of the valve in their order. -/
def command (m : Mem) (outs : List Addr) (c : Cmd) : Option Mem :=
  if configured m outs then writeAll m (outs.mapIdx fun i a => (a, decide (c.out = some i))) else some m

/-- `direct_set_state` of terminal valves without seats (lines 2289-2296) and with them (2471-2500). -/
def cmdOfState (seats : Bool) (n : Int) : Cmd :=
  if seats then (if n = 0 then .off else if n = 2 then .upper else if n = 3 then .lower else .on)
  else if n ≠ 0 then .on else .off

/-- A history of commands to the valves of a plant, numbered; `cfg` gives the outputs of each. -/
def run (cfg : Nat → List Addr) (m : Mem) : List (Nat × Cmd) → Option Mem
  | [] => some m
  | (i, c) :: l => (command m (cfg i) c).bind fun m => run cfg m l

/-! ## AS-i -/

/-- An AS-i valve: the image of its gateway, its number and whether its seats are connected the other way round. -/
structure As where
  img : Nat
  n : Nat
  rev : Bool := false

/-- Byte of the half byte of a valve in the image: `get_data_with_offset` (lines 2828-2849). -/
def As.off (v : As) : Nat := if v.n < 32 then 8 + v.n / 2 else 8 + 32 / 2 + (v.n - 32) / 2 + (v.n - 32) % 2

/-- Position in the byte (lines 2983-2991, 3005-3013, 3022-3030). -/
def As.shift (v : As) : Nat := if (v.n < 32 ∧ v.n % 2 = 0) ∨ (v.n ≥ 32 ∧ v.n % 2 = 1) then 4 else 0

/-- `get_upper_seat_offset` (lines 2918-2928). -/
def As.up (v : As) : BitVec 8 := if v.rev then 4 else 8

/-- `get_lower_seat_offset` (lines 2906-2916). -/
def As.lo (v : As) : BitVec 8 := if v.rev then 8 else 4

/-- `direct_off` (lines 2965-2994), the byte. -/
def As.offB (v : As) (x : BitVec 8) : BitVec 8 := x &&& (0xF0#8 >>> v.shift)

/-- `direct_on` (lines 2996-3017), the byte. -/
def As.onB (v : As) (x : BitVec 8) : BitVec 8 :=
  (x ||| (2#8 <<< v.shift)) &&& ~~~ (v.up <<< v.shift) &&& ~~~ (v.lo <<< v.shift)

/-- `direct_set_state` (lines 3019-3078), the byte. -/
def As.byte (v : As) (x : BitVec 8) : Cmd → BitVec 8
  | .off => v.offB x
  | .on => v.onB x
  | .upper => v.offB x ||| (v.up <<< v.shift)
  | .lower => v.offB x ||| (v.lo <<< v.shift)

/-- A command to an AS-i valve. -/
def As.command (m : Mem) (v : As) (c : Cmd) : Option Mem := change m v.img v.off fun x => v.byte x c

/-- `get_state_data` (lines 2795-2826): the half byte; the upper bits, which the callers mask away, are not modelled. -/
def As.nibble (m : Mem) (v : As) : BitVec 4 := (((m v.img)[v.off]?.getD 0) >>> v.shift).truncate 4

/-- `get_valve_state` (lines 2851-2867). -/
def As.valveState (m : Mem) (v : As) : Int :=
  let s := v.nibble m
  let o := s &&& 2 ≠ 0
  let l := s &&& v.lo.truncate 4 ≠ 0
  let u := s &&& v.up.truncate 4 ≠ 0
  if ¬ o ∧ u then 2 else if ¬ o ∧ l then 3 else if o then 1 else 0

/-- A history of commands to the AS-i valves of a plant. -/
def asRun (cfg : Nat → As) (m : Mem) : List (Nat × Cmd) → Option Mem
  | [] => some m
  | (i, c) :: l => ((cfg i).command m c).bind fun m => asRun cfg m l

/-- `start_switch_time` of an AS-i valve after a command at `now`, `o` telling whether the valve was open: `direct_on`
and `direct_off` (lines 2974-2979, 3002-3006), `direct_set_state` (3047-3051, 3063-3067: the seat has just been
closed, so the time always starts). -/
def asStart (o : Bool) (start now : Valve.Tm) : Cmd → Valve.Tm
  | .off => if o then now else start
  | .on => if o then start else now
  | .upper | .lower => now

end Ptusa.BitIo
