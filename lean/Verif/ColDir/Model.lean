import Verif.Column.Model

/-!
# Direct commands of a signal column and its outputs

Model of `signal_column::direct_set_state` with what it calls (PAC/common/device/base.cpp), of `signal_column_iolink` and
`signal_column_discrete` (PAC/common/device/device.cpp). Not the emulator. Both clock readings of a call of `blink` are taken to be equal,
as in `Column`. The warnings of the log are left out.
-/
namespace Ptusa.ColDir
open Column (LStep)

/-- The lamps and the siren. -/
inductive Light
  | red | yellow | green | blue | siren
  deriving DecidableEq, Repr

/-- `state_info` (device/base.h 1142-1147); of the siren only `siren_step`. -/
structure Info where
  step : LStep := .off
  start : BitVec 64 := 0
  wait : BitVec 64 := 0
  deriving DecidableEq, Repr

/-- The column: what it remembers of the lights, its outputs, `is_const_red`. -/
structure St where
  info : Light → Info
  outs : List Bool
  constRed : Bool

/-- A new column with `n` outputs. -/
def St.init (n : Nat) : St := ⟨fun _ => {}, List.replicate n false, false⟩

/-- A change at one light. -/
def upd {α : Type} (f : Light → α) (x : Light) (v : α) : Light → α := fun y => if y = x then v else f y

/-- `process_DO` (device/device.cpp 64-67 with bus_coupler_io.cpp 70-94; 112-142): output `n - 1` if there is one. -/
def processDO (n : Nat) (v : Bool) (outs : List Bool) : List Bool :=
  if n = 0 then outs else if n - 1 < outs.length then outs.set (n - 1) v else outs

/-- `turn_off_red` and so on (device/base.cpp 833-863, 963-968); `c`: the channels of the lights. -/
def St.turnOff (c : Light → Nat) (s : St) (x : Light) : St :=
  { s with info := upd s.info x { s.info x with step := .off }, outs := processDO (c x) false s.outs }

/-- `turn_on_red` and so on (device/base.cpp 865-895, 956-961). -/
def St.turnOn (c : Light → Nat) (s : St) (x : Light) : St :=
  { s with info := upd s.info x { s.info x with step := .on }, outs := processDO (c x) true s.outs }

/-- `blink` (device/base.cpp 1228-1258). -/
def St.blink (c : Light → Nat) (s : St) (x : Light) (now delay : BitVec 64) : St :=
  let i := s.info x
  match i.step with
  | .off | .on => { s with info := upd s.info x { i with start := now, step := .blinkOn } }
  | .blinkOn =>
    { s with
      outs := processDO (c x) true s.outs
      info := upd s.info x (if Time.deltaMs now i.start > delay then { i with wait := now, step := .blinkOff } else i) }
  | .blinkOff =>
    { s with
      outs := processDO (c x) false s.outs
      info := upd s.info x (if Time.deltaMs now i.wait > delay then { i with start := now, step := .blinkOn } else i) }

/-- `normal_blink_red`, `slow_blink_red` (device/base.cpp 897-910, 927-940). -/
def St.blinkRed (c : Light → Nat) (s : St) (now delay : BitVec 64) : St :=
  if s.constRed then s.blink c .red now delay else s.turnOn c .red

/-- `direct_off` (device/base.cpp 812-820). -/
def St.allOff (c : Light → Nat) (s : St) : St :=
  ((((s.turnOff c .red).turnOff c .yellow).turnOff c .green).turnOff c .blue).turnOff c .siren

/-- `direct_set_state` (device/base.cpp 1132-1226) with the numbers of `CMD` (device/base.h 1022-1053). -/
def St.direct (c : Light → Nat) (now : BitVec 64) (n : Int) (s : St) : St :=
  if n = 0 then s.allOff c
  else if n = 1 then (s.allOff c).turnOn c .green
  else if n = 2 then (((s.turnOff c .red).turnOff c .yellow).turnOff c .green).turnOff c .blue
  else if n = 3 then s.turnOn c .green
  else if n = 4 then s.turnOn c .yellow
  else if n = 5 then s.turnOn c .red
  else if n = 6 then s.turnOn c .blue
  else if n = 11 then s.blink c .green now Column.normalTime
  else if n = 7 then s.turnOff c .green
  else if n = 8 then s.turnOff c .yellow
  else if n = 9 then s.turnOff c .red
  else if n = 10 then s.turnOff c .blue
  else if n = 12 then s.blink c .yellow now Column.normalTime
  else if n = 13 then s.blinkRed c now Column.normalTime
  else if n = 14 then s.blink c .blue now Column.normalTime
  else if n = 15 then s.blink c .green now Column.slowTime
  else if n = 16 then s.blink c .yellow now Column.slowTime
  else if n = 17 then s.blinkRed c now Column.slowTime
  else if n = 18 then s.blink c .blue now Column.slowTime
  else if n = 19 then s.turnOn c .siren
  else if n = 20 then s.turnOff c .siren
  else s

/-- The letters of the lights in the property `SIGNALS_SEQUENCE`. -/
def letter : Light → Char
  | .red => 'R'
  | .yellow => 'Y'
  | .green => 'G'
  | .blue => 'B'
  | .siren => 'A'

/-- `signal_column_iolink::set_string_property` for `SIGNALS_SEQUENCE` (device/device.cpp 75-110). -/
def sequence (c : Light → Nat) (s : List Char) : Light → Nat := fun x =>
  match s.idxOf? (letter x) with
  | some i => i + 1
  | none => c x

/-- The channels of a discrete column (device/device.h 1347-1350). -/
def discrete : Light → Nat
  | .red => 1
  | .yellow => 2
  | .green => 3
  | .blue => 0
  | .siren => 4

/-- What happens to a column: a command with its time, `set_rt_par( 1, … )`. -/
inductive Ev
  | cmd (n : Int) (now : BitVec 64)
  | constRed (v : Bool)

def St.step (c : Light → Nat) (s : St) : Ev → St
  | .cmd n now => s.direct c now n
  | .constRed v => { s with constRed := v }

/-- A history. -/
def St.run (c : Light → Nat) (s : St) (es : List Ev) : St := es.foldl (St.step c) s

/-- `L_GREEN` and so on of the state for the server (device/base.cpp 996-1009). -/
def St.flag (s : St) (x : Light) : Bool :=
  if x = .siren then (s.info x).step == .on else (s.info x).step == .on || (s.info x).step == .blinkOn

/-- `get_state` (device/base.cpp 984-991). -/
def St.state (s : St) : Bool :=
  (s.info .green).step != .off || (s.info .yellow).step != .off || (s.info .red).step != .off || (s.info .blue).step != .off ||
    (s.info .siren).step != .off

end Ptusa.ColDir
