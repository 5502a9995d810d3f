import Verif.CritErr.Model
import Verif.Alarm.Model
import Verif.SysText.Model

/-!
# The list of alarms that the server reads

`PAC_critical_errors_manager::save_as_Lua_str`, `get_alarm_descr` (PAC/common/PAC_err.cpp 128-158, 172-343),
`tech_dev_error::save_as_Lua_str`, `tech_obj_error::save_as_Lua_str`, `errors_manager::save_as_Lua_str`
(common/PAC-driver/g_errors.cpp 38-66, 208-241, 344-356), the answer to `CMD_GET_PAC_ERRORS`
(common/PAC-driver/g_device.cpp 176-226).

Simplifications. The answer fits the buffer of 500 KiB. Texts are in UTF-8, as in the source. What changes the lists is modelled in
`CritErr` (critical errors) and `Alarm` (devices and messages), the number of the list in `CritErr` and `Alarm` too.
-/
namespace Ptusa.AlarmText
open SaveDev LuaText
open SysText (quoted)
open CritErr (Err)

/-- A node of inputs and outputs: `number`, `name`, `ip_address` (bus_coupler_io.cpp 1215-1221). -/
structure Node where
  number : Int
  name : Txt
  ip : Txt

/-- What the descriptions read: the nodes in the order of `add_node`, `get_host_name_rus()`, `strerror( errno )`. -/
structure Ctx where
  nodes : List Node
  host : Txt
  errno : Txt

/-- `get_node( par - 1 )` (bus_coupler_io.cpp 1119-1122): undefined outside of the nodes. -/
def Ctx.node (x : Ctx) (par : Int) : Option Node := if par < 1 then none else x.nodes[(par - 1).toNat]?

/-- The size of a text in bytes. -/
def bytes (t : Txt) : Nat := (t.map Char.utf8Size).sum

/-- `static char tmp[ 200 ]` (PAC_err.cpp 175): a longer text is undefined. -/
def fit (t : Txt) : Option Txt := if bytes t < 200 then some t else none

/-- The three numbers (PAC_err.cpp 176-177). -/
def numbers (e : Err) : Txt :=
  intText e.cls.toInt ++ '-' :: intText e.sub.toInt ++ '-' :: intText e.param.toInt ++ " : ".toList

/-- The function which failed (PAC_err.cpp 284-310). -/
def netText (sub : Int) : Txt :=
  if sub = 1 then "calling function socket(...) : ".toList
  else if sub = 2 then "calling function bind(...) : ".toList
  else if sub = 3 then "calling function setsockopt(...) : ".toList
  else if sub = 4 then "calling function listen(...) : ".toList
  else "? : ".toList

/-- With whom there is no connection (PAC_err.cpp 218-253). -/
def partner (x : Ctx) (sub par : Int) : Option Txt :=
  if sub = 1 then (x.node par).map fun n =>
    "узлом I/O '".toList ++ n.name ++ "' ('".toList ++ n.ip ++ "', '".toList ++ x.host ++ "')".toList
  else if sub = 2 then some ("panel EasyView №".toList ++ intText par ++ ['.'])
  else if sub = 3 then some ("Modbus-device №".toList ++ intText par ++ ['.'])
  else if sub = 4 then some ("RFID-reader №".toList ++ intText par ++ ['.'])
  else if sub = 5 then some "EasyServer.".toList
  else if sub = 6 then some "remote PAC.".toList
  else some []

/-- `get_alarm_descr` (PAC_err.cpp 172-343). -/
def descr (x : Ctx) (e : Err) (set : Bool) : Option Txt :=
  let cls := e.cls.toInt
  let sub := e.sub.toInt
  let par := e.param.toInt
  if cls = 0 then fit (numbers e ++ ['?'])
  else if cls = 1 then (partner x sub par).bind fun p =>
    fit (numbers e ++ (if set then "Нет связи с ".toList else "Есть связь с ".toList) ++ p)
  else if cls = 2 then some ['?']
  else if cls = 4 then
    (fit (numbers e ++ (if set then "Network communication error : ".toList else "Network communication OK : ".toList) ++
      (if par = 0 then "master : ".toList else if par = 1 then "modbus : ".toList else []) ++ netText sub)).bind fun t =>
    if set then fit (t ++ x.errno ++ ['.']) else some (t.take (t.length - 3) ++ ['.'])
  else if cls = 5 then
    (if sub = 1 then (x.node par).map fun n =>
      "Узел ввода/вывода '".toList ++ n.name ++ "' ('".toList ++ n.ip ++ "') - ".toList else some []).bind fun p =>
    fit (numbers e ++ p ++ (if set then "отключен для обслуживания".toList else "включен".toList))
  else fit (numbers e)

/-- One critical error (PAC_err.cpp 134-149). -/
def critText (x : Ctx) (e : Err) : Option Txt := (descr x e true).map fun d =>
  "\t{\n".toList ++
  ("\tdescription = ".toList ++ quoted d ++ ',' :: ['\n'] ++
   ("\ttype = ".toList ++ "AT_SPECIAL".toList ++ ',' :: ['\n']) ++
   ("\tgroup = ".toList ++ ('\'' :: "Авария".toList ++ ['\'']) ++ ',' :: ['\n']) ++
   ("\tpriority = ".toList ++ natText 100 ++ ',' :: ['\n']) ++
   ("\tstate = ".toList ++ "AS_ALARM".toList ++ ',' :: ['\n']) ++
   ("\tid_n = ".toList ++ intText e.param.toInt ++ ',' :: ['\n'])) ++
  "\t},\n".toList

/-- A message of an object: its text, kind and number. -/
structure Msg where
  text : Txt
  kind : Nat
  n : Int

/-- An element of `s_errors_vector`: a device with its name, the text of its error, the state of its alarm, whether it is
suppressed, its number and type; an object with its messages, number and type. -/
inductive Elem
  | dev (name text : Txt) (st : Alarm.AState) (suppress : Bool) (number type : Nat)
  | obj (msgs : List Msg) (number type : Nat)

/-- `ALARM_STATE` as a number (g_errors.h 37-43). -/
def stateNo : Alarm.AState → Nat
  | .normal => 0
  | .alarm => 1
  | .ret => 2
  | .accept => 3

/-- `%s` of a truth value (g_errors.cpp 60-61). -/
def truth (b : Bool) : Txt := if b then "true".toList else "false".toList

/-- `tech_obj_error::get_priority` (g_errors.cpp 292-314). -/
def priority (kind : Nat) : Nat :=
  if kind = 0 ∨ kind = 1 ∨ kind = 7 ∨ kind = 8 then 750
  else if kind = 2 ∨ kind = 3 ∨ kind = 4 then 500 else 250

/-- `tech_obj_error::get_group` (g_errors.cpp 316-339). -/
def group (kind : Nat) : Txt :=
  if kind = 0 ∨ kind = 1 ∨ kind = 7 ∨ kind = 8 then "ответ".toList
  else if kind = 2 ∨ kind = 3 ∨ kind = 4 then "сообщение".toList
  else if kind = 5 ∨ kind = 6 then "тревога".toList else ['?']

/-- One message (g_errors.cpp 215-237). -/
def msgText (number type : Nat) (m : Msg) : Txt :=
  "\t{\n".toList ++
  ("\tdescription=".toList ++ quoted m.text ++ ',' :: ['\n'] ++
   ("\tgroup=".toList ++ quoted (group m.kind) ++ ',' :: ['\n']) ++
   ("priority=".toList ++ natText (priority m.kind) ++ ',' :: []) ++
   ("state=".toList ++ natText 1 ++ ',' :: ['\n']) ++
   ("type=".toList ++ natText 4 ++ ',' :: ['\n']) ++
   ("id_n=".toList ++ natText number ++ ',' :: ['\n']) ++
   ("id_object_alarm_number=".toList ++ intText m.n ++ ',' :: ['\n']) ++
   ("id_type=".toList ++ natText type ++ ',' :: ['\n'])) ++
  ("suppress=".toList ++ truth false ++ "\n},\n".toList)

/-- `save_as_Lua_str` of a device and of an object (g_errors.cpp 38-66, 208-241). -/
def elemText : Elem → Txt
  | .dev name text st sup number type =>
    if st = .normal then [] else
    "\t{\n".toList ++
    ("\tdescription=".toList ++ quoted (name ++ " - ".toList ++ text) ++ ',' :: ['\n'] ++
     ("priority=".toList ++ natText 250 ++ ',' :: []) ++
     ("state=".toList ++ natText (stateNo st) ++ ',' :: ['\n']) ++
     ("type=".toList ++ natText 4 ++ ',' :: ['\n']) ++
     ("group=".toList ++ quoted "тревога".toList ++ ',' :: ['\n']) ++
     ("id_n=".toList ++ natText number ++ ',' :: ['\n']) ++
     ("id_type=".toList ++ natText type ++ ',' :: ['\n'])) ++
    ("suppress=".toList ++ truth sup ++ "\n},\n".toList)
  | .obj msgs number type => msgs.flatMap (msgText number type)

/-- All critical errors (PAC_err.cpp 132-150). -/
def critsText (x : Ctx) : List Err → Option Txt
  | [] => some []
  | e :: l => (critText x e).bind fun t => (critsText x l).map fun u => t ++ u

/-- The answer to `CMD_GET_PAC_ERRORS` (g_device.cpp 183-224): the alarms of devices and objects only without critical errors and
five seconds (`ready`) after the first request. -/
def answer (x : Ctx) (p : Nat) (crit : List Err) (l : List Elem) (ready : Bool) (id : Nat) : Option Txt :=
  (critsText x crit).map fun c =>
    "alarms[ ".toList ++ natText p ++ " ] = \n  {}".toList ++
    ("alarms[ ".toList ++ natText p ++ " ] = \n  {".toList) ++
    (c ++ (if crit = [] ∧ ready then l.flatMap elemText else []) ++
      ("  id = ".toList ++ natText id ++ ',' :: ['\n'])) ++
    "  }\n".toList

end Ptusa.AlarmText
