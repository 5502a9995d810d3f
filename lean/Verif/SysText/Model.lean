import Verif.ObjText.Model

/-!
# The state of the controller: its parameters, its text, the reload of the restrictions

`PAC_info::save_device`, `set_cmd`, `reset_params` (PAC_info.cpp 72-168, 189-281), `check_file`, `lua_manager::reload_script`
(lua_manager.cpp 31-60, 632-737).

Simplifications. A file is what Lua and `sscanf` make of it: its version, the error message of its execution (none: it succeeded);
executing it does not change these. `NODEENABLED` is modelled in `Coupler`, the timer of the restrictions in `PacInfo`, the OPC UA
server not at all (its commands exist only in some builds). The paths fit their buffers. Sizes of texts are counted in characters;
the texts written here are ASCII.
-/
namespace Ptusa.SysText
open SaveDev LuaText
open ObjText (oneText itemsText toUint)

/-- `PAC_info` with what its text shows of the nodes and of the program. `par` is numbered as in PAC_info.h 17-61. `answer`: the
text in `cmd_answer`; `none` if it has no end. -/
structure Sys where
  reset : Nat
  days : Nat
  hours : Nat
  mins : Nat
  secs : Nat
  upTime : Txt
  par : Nat → Nat
  cmd : Int
  answer : Option Txt
  version : Txt
  nodes : List Bool

/-- A text between quotation marks. -/
def quoted (t : Txt) : Txt := '"' :: t ++ ['"']

/-- `PAC_info::save_device` (PAC_info.cpp 97-168). An answer without an end is read beyond its array: undefined. -/
def save (s : Sys) : Option Txt :=
  match s.answer with
  | none => none
  | some a => some (
      "t.SYSTEM = \n\t{\n".toList ++
      oneText "RESET_BY".toList (natText s.reset) ++
      oneText "UP_DAYS".toList (natText s.days) ++
      oneText "UP_HOURS".toList (natText s.hours) ++
      oneText "UP_MINS".toList (natText s.mins) ++
      oneText "UP_SECS".toList (natText s.secs) ++
      oneText "UP_TIME".toList (quoted s.upTime) ++
      oneText "WASH_VALVE_SEAT_PERIOD".toList (natText (s.par 1)) ++
      oneText "WASH_VALVE_UPPER_SEAT_TIME".toList (natText (s.par 2)) ++
      oneText "WASH_VALVE_LOWER_SEAT_TIME".toList (natText (s.par 3)) ++
      oneText "P_V_OFF_DELAY_TIME".toList (natText (s.par 4)) ++
      oneText "P_V_BOTTOM_ON_DELAY_TIME".toList (natText (s.par 5)) ++
      oneText "P_WAGO_TCP_NODE_WARN_ANSWER_AVG_TIME".toList (natText (s.par 6)) ++
      oneText "P_MAIN_CYCLE_WARN_ANSWER_AVG_TIME".toList (natText (s.par 7)) ++
      oneText "P_RESTRICTIONS_MODE".toList (natText (s.par 8)) ++
      oneText "P_RESTRICTIONS_MANUAL_TIME".toList (natText (s.par 9)) ++
      oneText "P_AUTO_PAUSE_OPER_ON_DEV_ERR".toList (natText (s.par 10)) ++
      oneText "CMD".toList (intText s.cmd) ++
      oneText "CMD_ANSWER".toList (quoted a) ++
      oneText "VERSION".toList (quoted s.version) ++
      "\tNODEENABLED = \n\t{\n\t".toList ++ itemsText (s.nodes.map boolText) ++ "\n\t},\n".toList ++
      oneText "P_IS_OPC_UA_SERVER_ACTIVE".toList (natText (s.par 13)) ++
      oneText "P_IS_OPC_UA_SERVER_CONTROL".toList (natText (s.par 14)) ++
      "\t}\n".toList)

/-- `par.save( k, v )`. -/
def Sys.put (s : Sys) (k v : Nat) : Sys := { s with par := fun i => if i = k then v else s.par i }

/-- `PAC_info::set_cmd` for the parameters (PAC_info.cpp 215-281); `( u_int_4 ) val` is undefined outside of the type. Any other name is ignored. -/
def setPar (s : Sys) (prop : String) (v : Rat) : Option Sys :=
  if prop = "WASH_VALVE_SEAT_PERIOD" then (toUint v).map (s.put 1)
  else if prop = "WASH_VALVE_UPPER_SEAT_TIME" then (toUint v).map (s.put 2)
  else if prop = "WASH_VALVE_LOWER_SEAT_TIME" then (toUint v).map (s.put 3)
  else if prop = "P_V_OFF_DELAY_TIME" then (toUint v).map (s.put 4)
  else if prop = "P_V_BOTTOM_ON_DELAY_TIME" then (toUint v).map (s.put 5)
  else if prop = "P_WAGO_TCP_NODE_WARN_ANSWER_AVG_TIME" then (toUint v).map (s.put 6)
  else if prop = "P_MAIN_CYCLE_WARN_ANSWER_AVG_TIME" then (toUint v).map (s.put 7)
  else if prop = "P_RESTRICTIONS_MODE" then (toUint v).map (s.put 8)
  else if prop = "P_RESTRICTIONS_MANUAL_TIME" then (toUint v).map (s.put 9)
  else if prop = "P_AUTO_PAUSE_OPER_ON_DEV_ERR" then (toUint v).map (s.put 10)
  else some s

/-- `PAC_info::reset_params` (PAC_info.cpp 72-94). -/
def defaults : Nat → Nat
  | 1 => 180 | 2 => 2000 | 3 => 1000 | 4 => 1000 | 5 => 1200 | 6 => 50 | 7 => 300 | 8 => 0 | 9 => 120000 | 10 => 0
  | 11 => 60000 | 12 => 20000 | _ => 0

/-- The files in the directory of the project and in the current one: `%d` after `--version =` (0 without it; `none`: there is no
such file), the message of the failed execution. -/
structure Files where
  version : Bool → Option Int
  run : Bool → Option Txt

/-- `check_file` (lua_manager.cpp 31-60): the answer of a missing file is -1, its message is empty. -/
def check (f : Files) (here : Bool) : Int := (f.version here).getD (-1)

/-- The version which is looked at (lua_manager.cpp 667-679): the current directory is the second choice. -/
def found (f : Files) : Int := if check f false = -1 then check f true else check f false

/-- The message about the version (lua_manager.cpp 683-685). -/
def versionText (v : Int) : Txt :=
  "File \"main.restrictions.lua\" has version ".toList ++ intText v ++
  ", must be 1 (consider updating program \"ptusa_main\").".toList

/-- How a reload ends: the result and the answer; `none`: undefined behaviour. -/
abbrev Reload := Option (Int × Option Txt)

/-- `lua_manager::reload_script` (lua_manager.cpp 632-737) of the restrictions with an answer of 200 characters. A message about
the version beyond the array of 100 characters is undefined; a message of an execution loses its first character and, from 200
characters on, its end. -/
def reload (f : Files) : Reload :=
  if found f = -1 then some (1, some [])
  else if found f ≠ 1 then
    if (versionText (found f)).length < 100 then some (1, some (versionText (found f))) else none
  else match f.run false with
    | none => some (0, some [])
    | some _ => match f.run true with
      | none => some (0, some [])
      | some m =>
        let t := ("Reload Lua script - ".toList ++ m).drop 1
        some (1, if t.length < 200 then some t else none)

/-- A command to the controller: a parameter, `CMD = 0`, `CMD = 100` with the files of that time, `reset_params`. -/
inductive Ev
  | set (prop : String) (v : Rat)
  | clear
  | reload (f : Files)
  | defaults

/-- `PAC_info::set_cmd` (PAC_info.cpp 184-281), `reset_params`. -/
def step (s : Sys) : Ev → Option Sys
  | .set p v => setPar s p v
  | .clear => some { s with cmd := 0 }
  | .reload f => (reload f).map fun r => { s with cmd := r.1, answer := r.2 }
  | .defaults => some { s with par := defaults }

/-- Commands one after another. -/
def run : List Ev → Sys → Option Sys
  | [], s => some s
  | e :: l, s => match step s e with
    | none => none
    | some s => run l s

end Ptusa.SysText
