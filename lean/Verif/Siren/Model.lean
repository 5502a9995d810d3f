import Verif.Alarm.Spec
import Verif.CritErr.Model
import Verif.Timer.Model
import Verif.Base.Fl

/-!
# Signal lamps and siren: `siren_lights_manager` (`common/PAC-driver/g_errors.{h,cpp}`),
`is_any_important_mode` (`PAC/common/tech_def.{h,cpp}`)

The lamps and the siren are modelled as plain on/off outputs.
-/
namespace Ptusa.Siren

open Ptusa.Timer (Tm)

/-- One of the two blink machines of `eval`: the three `static` variables
(`g_errors.cpp:513-515`, `567-569`); `wait` is `step == 1`. -/
structure Blink where
  wait   : Bool
  blinkT : Tm
  waitT  : Tm
  deriving DecidableEq, Repr

/-- One call of the machine (`g_errors.cpp:517-536` with 250 ms, `571-590` with 1000 ms): whether
the lamp is lit, and the next state. -/
def Blink.tick (b : Blink) (period : Tm) (now : Tm) : Bool × Blink :=
  if b.wait then
    (false, if Time.deltaMs now b.waitT > period then { b with blinkT := now, wait := false } else b)
  else
    (true, if Time.deltaMs now b.blinkT > period then { b with waitT := now, wait := true } else b)

/-- A technological object as `is_any_important_mode` sees it at one moment: does its Lua table
have the function, what the function would return (`none`: it fails), and the words with the bits
of the running operations. -/
structure TObj where
  hasFun : Bool
  answer : Option Int
  words  : List (BitVec 32)
  deriving DecidableEq, Repr

/-- `tech_object::is_any_important_mode` (`tech_def.cpp:1353-1395`).  `known` is the function-local
`static char has_Lua_impl`, one variable for all objects (0 = `none`).  A call of a function that
does not exist or fails gives 1 (`lua_manager.cpp:563-578`). -/
def TObj.important (o : TObj) (known : Option Bool) : Bool × Option Bool :=
  let k := known.getD o.hasFun
  (if k then
      match (if o.hasFun then o.answer else none) with
      | some r => decide (r > 0)
      | none => true
    else o.words.any (· != 0),
    some k)

/-- `tech_object_manager::is_any_important_mode` (`tech_def.h:410-421`): stops at the first
object. -/
def anyImportant : List TObj → Option Bool → Bool × Option Bool
  | [], k => (false, k)
  | o :: rest, k =>
    let r := o.important k
    if r.1 then (true, r.2) else anyImportant rest r.2

/-- `siren_lights_manager` with its outputs and the statics of `eval`. -/
structure Sir where
  /-- all four devices are given to `init` (`g_errors.cpp:609-618`) -/
  installed : Bool
  manual    : Bool
  builtIn   : Bool
  startT    : Tm
  critN     : BitVec 32
  redB      : Blink
  yellowB   : Blink
  luaKnown  : Option Bool
  red       : Bool
  yellow    : Bool
  green     : Bool
  siren     : Bool
  deriving DecidableEq, Repr

/-- Constructor (`g_errors.cpp:645-653`) at time `now`, then `init` and `set_red_blink`. -/
def Sir.init (now : Tm) (installed builtIn : Bool) : Sir :=
  { installed := installed, manual := false, builtIn := builtIn, startT := now, critN := 0
    redB := ⟨false, 0, 0⟩, yellowB := ⟨false, 0, 0⟩, luaKnown := none
    red := false, yellow := false, green := false, siren := false }

/-- The red lamp (`g_errors.cpp:502-538`). -/
def Sir.evalRed (s : Sir) (now : Tm) (err : Bool) : Sir :=
  if err then
    if s.builtIn then { s with red := true }
    else
      let r := s.redB.tick 250 now
      { s with red := r.1, redB := r.2 }
  else { s with red := false }

/-- Switching the siren on (`g_errors.cpp:541-561`). -/
def Sir.evalOn (s : Sir) (id : BitVec 32) (newError : Bool) : Sir :=
  let s := if id != s.critN then { s with critN := id, siren := true } else s
  if newError then { s with siren := true } else s

/-- The yellow lamp (`g_errors.cpp:564-592`). -/
def Sir.evalYellow (s : Sir) (now : Tm) (msg : Bool) : Sir :=
  if msg then
    let r := s.yellowB.tick 1000 now
    { s with yellow := r.1, yellowB := r.2 }
  else { s with yellow := false }

/-- Switching the siren off (`g_errors.cpp:595-599`). -/
def Sir.evalOff (s : Sir) (crit noAck : Bool) : Sir :=
  if !crit && !noAck then { s with siren := false } else s

/-- The green lamp (`g_errors.cpp:602-606`). -/
def Sir.evalGreen (s : Sir) (objs : List TObj) : Sir :=
  let r := anyImportant objs s.luaKnown
  { s with green := r.1, luaKnown := r.2 }

/-- The identifier of the list of critical errors as `u_int`
(`PAC_err.h:106-109`; the counter itself has 16 bits). -/
def critId (c : CritErr.Mgr) : BitVec 32 := c.id.zeroExtend 32

/-- `siren_lights_manager::eval` (`g_errors.cpp:483-607`). -/
def Sir.eval (s : Sir) (now : Tm) (c : CritErr.Mgr) (f : Alarm.Flags) (objs : List TObj) : Sir :=
  if !s.installed then s
  else if Time.deltaMs now s.startT < 5000 then { s with critN := critId c }
  else if s.manual then { s with critN := critId c }
  else
    ((((s.evalRed now (c.isAnyError || f.anyError)).evalOn (critId c) f.newError).evalYellow now
      f.anyMessage).evalOff c.isAnyError f.anyNoAck).evalGreen objs

/-- The controller: alarms, critical errors, lamps. -/
structure Sys where
  alarm : Alarm.Mgr
  crit  : CritErr.Mgr
  sir   : Sir

/-- Which output. -/
inductive Lamp where
  | red
  | yellow
  | green
  | siren
  deriving DecidableEq, Repr

/-- An on/off command given to the device itself. -/
def Sir.force (s : Sir) (b : Bool) : Lamp → Sir
  | .red => { s with red := b }
  | .yellow => { s with yellow := b }
  | .green => { s with green := b }
  | .siren => { s with siren := b }

/-- Events. -/
inductive Ev where
  /-- end of a control cycle (`main.cpp:210-211`): alarms are evaluated, then the lamps;
  `neg i`: the device at position `i` of the alarm list reports an error -/
  | cycle (now : Tm) (neg : Nat → Bool) (objs : List TObj)
  /-- command of the operator for the alarm list -/
  | cmd (cmd : Nat) (key : Nat × Nat) (n : Int)
  /-- message of a technological object -/
  | post (i : Nat) (text : Nat)
  /-- critical error set or reset -/
  | crit (c : CritErr.Call)
  /-- `set_cmd( "MANUAL_MODE", 0, v )` (`g_errors.cpp:632-640`) -/
  | manual (v : Fl)
  /-- command given to a lamp or the siren itself -/
  | force (l : Lamp) (b : Bool)

/-- One event. -/
def Sys.step (s : Sys) : Ev → Sys
  | .cycle now neg objs =>
    let a := s.alarm.evaluate neg
    { s with alarm := a, sir := s.sir.eval now s.crit a.flags objs }
  | .cmd c k n => { s with alarm := s.alarm.setCmd c k n }
  | .post i t => { s with alarm := s.alarm.post i t }
  | .crit c => { s with crit := s.crit.step c }
  | .manual v => { s with sir := { s.sir with manual := Fl.lt 0 v } }
  | .force l b => { s with sir := s.sir.force b l }

/-- A history. -/
def Sys.run (s : Sys) (es : List Ev) : Sys := es.foldl Sys.step s

end Ptusa.Siren
