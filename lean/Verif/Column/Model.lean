import Verif.Time.Model

/-!
# Signal column: `signal_column` in `PAC/common/device/base.{h,cpp}`

Not the emulator.  A lamp has its step and the state of its output (`process_DO`).  Both clock readings of one
call of `blink` are taken to be equal.
-/
namespace Ptusa.Column

/-- `STEP`, base.h 1134-1140. -/
inductive LStep
  | off
  | on
  | blinkOff
  | blinkOn
  deriving DecidableEq, Repr

/-- `state_info`, base.h 1142-1147, with the output of the lamp. -/
structure Lamp where
  step : LStep := .off
  start : BitVec 64 := 0
  wait : BitVec 64 := 0
  out : Bool := false
  deriving DecidableEq, Repr

/-- `turn_off_red` and so on, base.cpp 833-863. -/
def Lamp.turnOff (l : Lamp) : Lamp := { l with step := .off, out := false }

/-- `turn_on_red` and so on, base.cpp 865-895. -/
def Lamp.turnOn (l : Lamp) : Lamp := { l with step := .on, out := true }

/-- `blink`, base.cpp 1228-1258. -/
def Lamp.blink (l : Lamp) (now delay : BitVec 64) : Lamp :=
  match l.step with
  | .off | .on => { l with start := now, step := .blinkOn }
  | .blinkOn =>
    if Time.deltaMs now l.start > delay then { l with out := true, wait := now, step := .blinkOff }
    else { l with out := true }
  | .blinkOff =>
    if Time.deltaMs now l.wait > delay then { l with out := false, start := now, step := .blinkOn }
    else { l with out := false }

/-- `NORMAL_BLINK_TIME`, base.h 1130. -/
def normalTime : BitVec 64 := 250

/-- `SLOW_BLINK_TIME`, base.h 1131. -/
def slowTime : BitVec 64 := 1000

/-- `show_states`, base.h 1084-1096. -/
inductive Show
  | idle
  | error
  | message
  | batchNot
  | batchRun
  | opNot
  | opRun
  deriving DecidableEq, Repr

/-- The column; `constRed`: the program makes the red lamp blink (`is_const_red`). -/
structure Col where
  red : Lamp := {}
  yellow : Lamp := {}
  green : Lamp := {}
  blue : Lamp := {}
  siren : Bool := false
  constRed : Bool := false
  manual : Bool := false
  shown : Show := .idle
  deriving DecidableEq, Repr

/-- `normal_blink_red`, `slow_blink_red`, base.cpp 897-910, 927-940. -/
def Col.blinkRed (c : Col) (now delay : BitVec 64) : Col :=
  { c with red := if c.constRed then c.red.blink now delay else c.red.turnOn }

/-- `evaluate_io`, base.cpp 1011-1017: the start of a cycle. -/
def Col.evaluateIo (c : Col) : Col := { c with shown := .idle }

/-- The guard of a posting against what is already shown, base.cpp 1033, 1050-1051, 1066-1068, 1084-1086,
1102-1105, 1121-1126. -/
def allowed (e shown : Show) : Bool :=
  match e with
  | .error => true
  | .message => shown != .error
  | .batchNot => shown != .error && shown != .message
  | .batchRun => shown != .error && shown != .message && shown != .batchNot
  | .opNot => shown != .error && shown != .message && shown != .batchNot
  | .opRun => shown != .error && shown != .message && shown != .batchNot && shown != .opNot
  | .idle => shown == .idle

/-- The lights switched by a posting, base.cpp 1024-1028, 1036-1040, 1054-1057, 1071-1075, 1089-1093, 1108-1112,
1129-1133. -/
def Col.lights (c : Col) (e : Show) (now : BitVec 64) : Col :=
  match e with
  | .error =>
    let c1 := c.blinkRed now normalTime
    { c1 with yellow := c1.yellow.turnOff, green := c1.green.turnOff, siren := true }
  | .message =>
    { c with red := c.red.turnOff, yellow := c.yellow.blink now normalTime, green := c.green.turnOff,
             blue := c.blue.turnOff, siren := false }
  | .batchNot =>
    { c with red := c.red.turnOff, yellow := c.yellow.turnOn, green := c.green.turnOff, siren := false }
  | .batchRun | .opRun =>
    { c with red := c.red.turnOff, yellow := c.yellow.turnOff, green := c.green.turnOn,
             blue := c.blue.turnOff, siren := false }
  | .opNot =>
    { c with red := c.red.turnOff, yellow := c.yellow.turnOn, green := c.green.turnOff,
             blue := c.blue.turnOff, siren := false }
  | .idle =>
    { c with red := c.red.turnOff, yellow := c.yellow.turnOff, green := c.green.turnOff,
             blue := c.blue.turnOff, siren := false }

/-- `show_error_exists` and the other postings, base.cpp 1019-1136. -/
def Col.post (c : Col) (e : Show) (now : BitVec 64) : Col :=
  if c.manual then c
  else if allowed e c.shown then ({ c with shown := e }).lights e now
  else c

/-- The postings of one cycle with their times. -/
def Col.posts (c : Col) (ps : List (Show × BitVec 64)) : Col :=
  ps.foldl (fun c p => c.post p.1 p.2) c

/-- A cycle: `evaluate_io`, then the postings of the aggregates. -/
def Col.cycle (c : Col) (ps : List (Show × BitVec 64)) : Col := c.evaluateIo.posts ps

end Ptusa.Column
