import Verif.SaveDev.Model
import Verif.LuaText.Spec

/-!
# The text of the technological objects, the backup of their parameters and its restoration

`tech_object::save_device` (tech_def.cpp 808-966), `parameters::save_device`, `save_device_ex`, `save_dev`
(param_ex.h 307-324, 355-411), `tech_object::save_params_as_Lua_str`, `set_param` (tech_def.cpp 1106-1157),
`tech_object_manager::save_params_as_Lua_str` (1601-1612), `params_manager::save_params_as_Lua_str`,
`restore_params_from_server_backup` (param_ex.cpp 217-260).

Simplifications. The buffer is large enough. An object is the record of what these functions read: the answers of the getters of
its operations. `%.2f` of a float is exact decimal rounding, ties to even. Lua reads a decimal numeral as its value; it is rounded
to a float in `set_param`, by a function which is a parameter here (`fl`).
-/
namespace Ptusa.ObjText
open SaveDev LuaText

/-- What the text shows of a state of an operation: `steps_count()`, `active_step()` (0: none), the numbers of the active extra
steps (operation_mngr.cpp 2454-2462, 2613-2619). -/
structure StepSt where
  count : Nat
  active : Nat
  extra : List Int

/-- What the text shows of an operation: `get_state()`, the counter of its unavailability, `evaluation_time()`,
`get_run_step()`, `active_step_evaluation_time()` and its states 0…14 (operation_mngr.cpp 227-240, 413-441, 453-461, 531-534). -/
structure Op where
  state : Nat
  unavailable : Int
  time : Nat
  runStep : Int
  stepTime : Nat
  states : Nat → StepSt

/-- A technological object. -/
structure Obj where
  name : Txt
  cmd : Nat
  recNmr : Int
  recName : Txt
  words : List Nat
  ops : List Op
  idle : Nat
  parF : List Fv
  parU : List Nat
  rtF : List Fv
  rtU : List Nat
  /-- `stub` of the parameters which are not saved: what an index out of range reads. -/
  stubF : Fv := .num 0
  stubU : Nat := 0

/-- `operation::active_step` (operation_mngr.cpp 413-421). -/
def Op.activeStep (o : Op) : Nat := if 0 < o.state ∧ o.state < 15 then (o.states o.state).active else 0

/-- `operation::en_state_str` (operation_mngr.h 792-809). -/
def stateName (s : Nat) : String :=
  match s with
  | 0 => "OFF" | 1 => "RUN" | 2 => "PAUSE" | 3 => "STOP"
  | 10 => "STARTING" | 11 => "PAUSING" | 12 => "UNPAUSING" | 13 => "STOPPING" | 14 => "COMPLETING"
  | _ => ""

/-- `"%d, "` and its relatives, one item after another. -/
def itemsText (l : List Txt) : Txt := l.flatMap fun t => t ++ [',', ' ']

/-- `"\tKEY=\n\t\t{\n\t\t"`, the items, `"\n\t\t},\n"`. -/
def listText (key : Txt) (l : List Txt) : Txt :=
  '\t' :: key ++ "=\n\t\t{\n\t\t".toList ++ itemsText l ++ "\n\t\t},\n".toList

/-- `"\tKEY=%d,\n"`. -/
def oneText (key : Txt) (v : Txt) : Txt := '\t' :: key ++ '=' :: v ++ [',', '\n']

/-- The item of a float parameter (param_ex.h 362-386). The conversion to `int` of a value outside of it is undefined. -/
def floatText : Fv → Option Txt
  | .num q =>
    if q = 0 then some ['0']
    else if q.den = 1 then (if -2147483648 ≤ q.num ∧ q.num ≤ 2147483647 then some (intText q.num) else none)
    else some (ratText 2 q)
  | .inf _ => none
  | .nan neg => some (fixed 2 (.nan neg))

/-- The items of float parameters. -/
def floatsText : List Fv → Option (List Txt)
  | [] => some []
  | x :: l => match floatText x with
    | none => none
    | some t => (floatsText l).map fun r => t :: r

/-- The item of a step: `1` for the active step and the active extra steps (tech_def.cpp 906-923, 942-953). -/
def stepText (s : StepSt) (j : Nat) : Txt := if s.active = j ∨ (j : Int) ∈ s.extra then ['1'] else ['0']

/-- The items of all steps of a state. -/
def stepsText (s : StepSt) : List Txt := (List.range' 1 s.count).map (stepText s)

/-- The lists `STEPSi` (tech_def.cpp 894-926), from operation `i` on. -/
def runSteps : Nat → List Op → Txt
  | _, [] => []
  | i, o :: l =>
    (if (o.states 1).count = 0 then [] else listText ("STEPS".toList ++ natText i) (stepsText (o.states 1))) ++ runSteps (i + 1) l

/-- The lists of one state of all operations (tech_def.cpp 931-956), from operation `i` on. -/
def stateSteps (s : Nat) : Nat → List Op → Txt
  | _, [] => []
  | i, o :: l =>
    (if (o.states s).count = 0 then []
     else listText ((stateName s).toList ++ "_STEPS".toList ++ natText i) (stepsText (o.states s))) ++ stateSteps s (i + 1) l

/-- The time of the active step: of the last operation which is performed (tech_def.cpp 857-867). -/
def stepTime : List Op → Nat
  | [] => 0
  | o :: l => if l.any (fun o => o.state == 1) then stepTime l else if o.state = 1 then o.stepTime / 1000 else 0

/-- `tech_object::save_device` (tech_def.cpp 808-966). -/
def Obj.save (o : Obj) : Option Txt :=
  match floatsText o.parF, floatsText o.rtF with
  | some pf, some rf => some (
      "t.".toList ++ o.name ++ " = t.".toList ++ o.name ++ " or {}\nt.".toList ++ o.name ++ "=\n\t{\n".toList ++
      oneText "CMD".toList (natText o.cmd) ++ oneText "LASTRECNMR".toList (intText o.recNmr) ++
      oneText "LASTRECNAME".toList ('\'' :: o.recName ++ ['\'']) ++
      listText "ST".toList (o.words.map natText) ++
      listText "MODES".toList (o.ops.map fun p => boolText (p.state != 0)) ++
      listText "OPERATIONS".toList (o.ops.map fun p => natText p.state) ++
      listText "AVAILABILITY".toList (o.ops.map fun p => boolText (p.unavailable == 0)) ++
      oneText "ACTIVE_OPERATION_OR_IDLE_TIME".toList (natText (o.idle / 1000)) ++
      oneText "ACTIVE_STEP_TIME".toList (natText (stepTime o.ops)) ++
      listText "MODES_TIME".toList (o.ops.map fun p => natText (p.time / 1000)) ++
      listText "MODES_STEPS".toList (o.ops.map fun p => natText p.activeStep) ++
      listText "MODES_RUN_STEPS".toList (o.ops.map fun p => intText p.runStep) ++
      runSteps 1 o.ops ++ (List.range' 1 14).flatMap (fun s => stateSteps s 1 o.ops) ++
      listText "S_PAR_F".toList pf ++ listText "S_PAR_UI".toList (o.parU.map natText) ++
      listText "RT_PAR_F".toList rf ++ listText "RT_PAR_UI".toList (o.rtU.map natText) ++
      "\t}\n".toList)
  | _, _ => none

/-- The texts of all objects, one after another. -/
def saveObjs : List Obj → Option Txt
  | [] => some []
  | o :: l => match o.save, saveObjs l with
    | some a, some b => some (a ++ b)
    | _, _ => none

/-! ## The backup -/

/-- One call (tech_def.cpp 1108-1112): the last two characters of the list, a comma and a line feed, are overwritten. -/
def callText (name : Txt) (par : String) (id : Nat) (l : List Txt) : Txt :=
  "params{ object = ".toList ++ ('\'' :: name ++ ['\'']) ++ ", param_name = ".toList ++ ('\'' :: par.toList ++ ['\'']) ++
  ", par_id = ".toList ++ natText id ++ [',', '\n'] ++ "values".toList ++ ['=', '\n', '\t', '{', '\n', '\t'] ++ itemsText l ++
  ['\n', '\t', '}', ' ', '}', '\n']

/-- `tech_object::save_params_as_Lua_str` (tech_def.cpp 1106-1133). -/
def Obj.backup (o : Obj) : Option Txt :=
  match floatsText o.parF, floatsText o.rtF with
  | some pf, some rf => some (
      callText o.name "par_float" 1 pf ++ callText o.name "rt_par_float" 2 rf ++
      callText o.name "par_uint" 3 (o.parU.map natText) ++ callText o.name "rt_par_uint" 4 (o.rtU.map natText))
  | _, _ => none

/-- `tech_object_manager::save_params_as_Lua_str` (tech_def.cpp 1601-1612). -/
def backup : List Obj → Option Txt
  | [] => some []
  | o :: l => match o.backup, backup l with
    | some a, some b => some (a ++ b)
    | _, _ => none

/-! ## The restoration -/

/-- `values[ idx - 1 ] = v` for an index from 1 to the count (param_ex.h 191-200, 489-505): `none` for an index out of range. -/
def put {α : Type} (l : List α) (idx : Int) (v : α) : Option (List α) :=
  if 0 < idx ∧ idx ≤ l.length then some (l.set (idx.toNat - 1) v) else none

/-- `( u_int ) value` (tech_def.cpp 1148, 1152): undefined outside of the type. -/
def toUint (q : Rat) : Option Nat := if -1 < q ∧ q < 4294967296 then some ⌊q⌋₊ else none

/-- `tech_object::set_param` (tech_def.cpp 1135-1157). An index out of range of a saved parameter is not written, of another
parameter it is written into the stub. -/
def Obj.setParam (fl : Rat → Fv) (o : Obj) (id : Rat) (idx : Int) (q : Rat) : Option Obj :=
  if id = 1 then some { o with parF := (put o.parF idx (fl q)).getD o.parF }
  else if id = 2 then
    match put o.rtF idx (fl q) with
    | some l => some { o with rtF := l }
    | none => some { o with stubF := fl q }
  else if id = 3 then (toUint q).map fun n => { o with parU := (put o.parU idx n).getD o.parU }
  else if id = 4 then (toUint q).map fun n =>
    match put o.rtU idx n with
    | some l => { o with rtU := l }
    | none => { o with stubU := n }
  else some o

/-- The loop of the Lua function `params` (param_ex.cpp 236-240) over the values from number `idx` on: `set_param` with the
number less one. A value `nil` is not in the table. `pairs` may visit the numbers in another order; every number is written once
and to its own place. -/
def setAll (fl : Rat → Fv) (o : Obj) (id : Rat) : Nat → List Lv → Option Obj
  | _, [] => some o
  | idx, v :: l => match v with
    | .num q => match o.setParam fl id ((idx : Int) - 1) q with
      | none => none
      | some o => setAll fl o id (idx + 1) l
    | _ => setAll fl o id (idx + 1) l

/-- The value is not a number. -/
def notNum : Lv → Bool
  | .num _ => false
  | _ => true

/-- How a restoration ends: undefined behaviour, or the answer (`true`: done, `false`: an error) with the objects. -/
abbrev Res := Option (Bool × List Obj)

/-- One call of the Lua function. `bound`: the method `set_param` can be called from Lua. It is not among the methods which
PAC_dev_lua.cpp 15542-15590 registers, so a project has to supply it. Objects are found in `sys` by their Lua names. -/
def callParams (fl : Rat → Fv) (bound : Bool) (objs : List Obj) (fs : List (Option Txt × Lv)) : Res :=
  match field fs "object", field fs "par_id", field fs "values" with
  | some (.str x), some (.num id), some (.table vs) =>
    if (items vs).all notNum then some (true, objs)
    else match objs.findIdx? (fun o => o.name == x) with
      | none => some (false, objs)
      | some i =>
        if bound then
          match objs[i]? with
          | none => some (false, objs)
          | some o => match setAll fl o id 1 (items vs) with
            | none => none
            | some o => some (true, objs.set i o)
        else some (false, objs)
  | _, _, _ => some (false, objs)

/-- The calls of a text up to the first error. -/
def callAll (fl : Rat → Fv) (bound : Bool) : List Obj → List (Txt × List (Option Txt × Lv)) → Res
  | objs, [] => some (true, objs)
  | objs, (f, fs) :: l =>
    if f = "params".toList then
      match callParams fl bound objs fs with
      | some (true, objs) => callAll fl bound objs l
      | r => r
    else some (false, objs)

/-- `params_manager::restore_params_from_server_backup` (param_ex.cpp 226-260): a text which Lua cannot compile changes nothing. -/
def restore (fl : Rat → Fv) (bound : Bool) (objs : List Obj) (s : Txt) : Res :=
  match readCalls s with
  | none => some (false, objs)
  | some l => callAll fl bound objs l

end Ptusa.ObjText
