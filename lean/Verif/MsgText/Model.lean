import Verif.SaveDev.Model

/-!
# Messages of a technological object

Model of `tech_object::set_err_msg` (PAC/common/tech_def.cpp 1172-1305), `tech_object::is_any_error` (1307-1320), and of
`tech_obj_error::set_cmd` and `get_priority` (common/PAC-driver/g_errors.cpp 258-313).

A text of the source is given by its characters; in memory it is UTF-8, bytes are natural numbers.  The name of an operation that does not
exist is that of `oper_stub`.  Left out: the debug output, the overflow of `error_number` after 2^31 messages.
-/
namespace Ptusa.MsgText
open SaveDev

/-- UTF-8. -/
def encChar (c : Char) : List Nat :=
  let v := c.toNat
  if v < 0x80 then [v]
  else if v < 0x800 then [0xC0 + v / 64, 0x80 + v % 64]
  else if v < 0x10000 then [0xE0 + v / 4096, 0x80 + v / 64 % 64, 0x80 + v % 64]
  else [0xF0 + v / 262144, 0x80 + v / 4096 % 64, 0x80 + v / 64 % 64, 0x80 + v % 64]

/-- A text in memory. -/
def enc (t : Txt) : List Nat := t.flatMap encChar

/-- `ERR_MSG_TYPES` (tech_def.h); `other` is any other value. -/
inductive Kind where
  | cantOn | onWithErrors | off | offAndOn | duringWork | alarm | toFail | cantOn2Oper | cantOn2Obj | other
  deriving DecidableEq, Repr

/-- The object: `name`, `number`, the names of its operations. -/
structure Obj where
  name : Txt
  number : Int
  oper : Int → Txt

/-- `MAX_STR_LENGTH` (tech_def.h 220). -/
def size : Nat := 600

/-- `snprintf` into a buffer of `n` bytes (not 0): what the buffer then holds. -/
def printed (n : Nat) (t : Txt) : List Nat := (enc t).take (n - 1)

/-- `'NAME NUMBER' - ` -/
def Obj.who (o : Obj) : Txt := '\'' :: o.name ++ ' ' :: intText o.number ++ "' - ".toList

/-- `MODE 'NAME'` -/
def Obj.what (o : Obj) (mode : Int) : Txt := intText mode ++ " '".toList ++ o.oper mode ++ ['\'']

/-- ` - WHY.` -/
def reason (why : Txt) : Txt := " - ".toList ++ why ++ ['.']

/-- The second `snprintf` (lines 1214-1219, 1258-1263): from the last byte on, with `sizeof - strlen - 1` bytes. -/
def append (m : List Nat) (why : Txt) : List Nat :=
  if why = [] then m
  else
    let room := size - m.length - 1
    if room = 0 then m else m.dropLast ++ printed room (reason why)

/-- The text of a message (lines 1181-1282). -/
def Obj.message (o : Obj) (why : Txt) (mode newMode : Int) : Kind → List Nat
  | .cantOn => printed size (o.who ++ "не включена операция ".toList ++ o.what mode ++ reason why)
  | .onWithErrors => printed size (o.who ++ "включена с ошибкой операция ".toList ++ o.what mode ++ reason why)
  | .off => printed size (o.who ++ "отключена операция ".toList ++ o.what mode ++ reason why)
  | .offAndOn =>
    append (printed size (o.who ++ "переход от ".toList ++ o.what mode ++ " к ".toList ++ o.what newMode ++ ['.'])) why
  | .duringWork =>
    if 0 < mode then printed size (o.who ++ "операция ".toList ++ o.what mode ++ reason why)
    else printed size (o.who ++ why ++ ['.'])
  | .alarm => printed size (o.who ++ why ++ ['.'])
  | .toFail => printed size (o.who ++ "авария операции ".toList ++ o.what mode ++ reason why)
  | .cantOn2Oper =>
    append (printed size (o.who ++ "не включена операция ".toList ++ o.what mode ++ " - уже включена операция ".toList ++
      o.what newMode ++ ['.'])) why
  | .cantOn2Obj => printed size (o.who ++ "не включена операция ".toList ++ o.what mode ++ reason why)
  | .other => printed size ('\'' :: o.name ++ "' - операция ".toList ++ o.what mode ++ reason why)

/-! ### The list of messages -/

/-- `get_priority` is `P_ALARM` (g_errors.cpp 292-313). -/
def Kind.isAlarm : Kind → Bool
  | .cantOn | .onWithErrors | .cantOn2Oper | .cantOn2Obj => false
  | .off | .offAndOn | .duringWork => false
  | .alarm | .toFail => true
  | .other => true

/-- A message is set, with the number it gets; a message is acknowledged. -/
inductive Ev where
  | post (n : Nat) (k : Kind)
  | ack (n : Nat)
  deriving DecidableEq, Repr

/-- `E_MAX_ERRORS_SIZE` (tech_def.h 360). -/
def maxErrors : Nat := 10

/-- `errors` after an event (tech_def.cpp 1287-1301, g_errors.cpp 258-290). -/
def step (l : List (Nat × Kind)) : Ev → List (Nat × Kind)
  | .post n k => if l.length < maxErrors then l ++ [(n, k)] else l
  | .ack n => l.eraseP fun e => e.1 == n

/-- A history. -/
def run (h : List Ev) : List (Nat × Kind) := h.foldl step []

/-- `is_any_error` (tech_def.cpp 1307-1320). -/
def isAnyError (l : List (Nat × Kind)) : Bool := l.any fun e => e.2.isAlarm

end Ptusa.MsgText
