import Verif.AlarmText.Model
import Verif.SysText.Spec

/-!
# What the server should read in the list of alarms
-/
namespace Ptusa.AlarmText
open SaveDev LuaText
open SysText (CleanQ)
open CritErr (Err)

/-- The global tables of the server, by name and number. -/
abbrev Tables := Txt → Rat → Option Lv

/-- Assignments `name[ number ] = value`, one after another. -/
def assign : Nat → List Tok → Tables → Option Tables
  | 0, _, _ => none
  | n + 1, ts, env => match ts with
    | [] => some env
    | .name t :: .sym '[' :: .num q :: .sym ']' :: .sym '=' :: r => match pVal r.length r with
      | some (v, r) => assign n r (fun t' q' => if t' = t ∧ q' = q then some v else env t' q')
      | none => none
    | _ => none

/-- The server runs the answer. -/
def serverReads (s : Txt) (env : Tables) : Option Tables :=
  match lex .idle s with
  | none => none
  | some ts => assign (ts.length + 1) ts env

/-- What an entry of the list says. -/
abbrev Rec := List (String × Lv)

/-- The entry of a critical error. -/
def critRec (d : Txt) (e : Err) : Rec :=
  [("description", .str d), ("type", .glob "AT_SPECIAL".toList), ("group", .str "Авария".toList), ("priority", .num 100),
   ("state", .glob "AS_ALARM".toList), ("id_n", .num e.param.toInt)]

/-- The number of a state of an alarm for the server: normal, alarm, alarm gone but not acknowledged, acknowledged. -/
def stateFor : Alarm.AState → Nat
  | .normal => 0
  | .alarm => 1
  | .ret => 2
  | .accept => 3

/-- Group and priority of a message by its kind: refusals to switch on and warnings when switching on (0, 1, 7, 8) are answers,
messages about the course of an operation (2, 3, 4) are messages, the others are alarms. -/
def kindFor : Nat → Txt × Nat
  | 0 | 1 | 7 | 8 => ("ответ".toList, 750)
  | 2 | 3 | 4 => ("сообщение".toList, 500)
  | 5 | 6 => ("тревога".toList, 250)
  | _ => ("?".toList, 250)

/-- The entries of a device (none without an alarm) and of an object. -/
def elemRecs : Elem → List Rec
  | .dev name text st sup number type =>
    if st = .normal then [] else
    [[("description", .str (name ++ " - ".toList ++ text)), ("priority", .num 250), ("state", .num (stateFor st)), ("type", .num 4),
      ("group", .str "тревога".toList), ("id_n", .num number), ("id_type", .num type), ("suppress", .bool sup)]]
  | .obj msgs number type => msgs.map fun m =>
    [("description", .str m.text), ("group", .str (kindFor m.kind).1), ("priority", .num (kindFor m.kind).2), ("state", .num 1),
     ("type", .num 4), ("id_n", .num number), ("id_object_alarm_number", .num m.n), ("id_type", .num type),
     ("suppress", .bool false)]

/-- A value is a table which says what it should. -/
def Says (v : Lv) (r : Rec) : Prop := ∃ fs, v = .table fs ∧ items fs = [] ∧ ∀ p ∈ r, field fs p.1 = some p.2

/-- The server has the list: these entries in this order, under this number. -/
def Lists (env : Tables) (p : Nat) (rs : List Rec) (id : Nat) : Prop :=
  ∃ fs, env "alarms".toList p = some (.table fs) ∧ List.Forall₂ Says (items fs) rs ∧ field fs "id" = some (.num id)

/-- The texts of an element can stand between quotation marks. -/
def Elem.Clean : Elem → Prop
  | .dev name text _ _ _ _ => CleanQ name ∧ CleanQ text
  | .obj msgs _ _ => ∀ m ∈ msgs, CleanQ m.text

/-- What should be listed: the critical errors with their descriptions, or else the others. -/
def listed (ds : List (Txt × Err)) (l : List Elem) (ready : Bool) : List Rec :=
  ds.map (fun d => critRec d.1 d.2) ++ if ds = [] ∧ ready then l.flatMap elemRecs else []

/-- The texts of the project and of the system can stand between quotation marks. -/
def Ctx.Clean (x : Ctx) : Prop := (∀ n ∈ x.nodes, CleanQ n.name ∧ CleanQ n.ip) ∧ CleanQ x.host ∧ CleanQ x.errno

/-- The nodes are numbered in the order in which they were added, from one. -/
def Ctx.Numbered (x : Ctx) : Prop := ∀ (i : Nat) (n : Node), x.nodes[i]? = some n → n.number = (i : Int) + 1

/-- The critical error "no connection to the node with this number" and "the node with this number is off". -/
def lost (number : Int) : Err := ⟨1, 1, BitVec.ofInt 32 number⟩
def serviced (number : Int) : Err := ⟨5, 1, BitVec.ofInt 32 number⟩

/-- What the operator should read about a lost node and about a node which is off. -/
def lostText (x : Ctx) (n : Node) : Txt :=
  "1-1-".toList ++ intText n.number ++ " : Нет связи с узлом I/O '".toList ++ n.name ++ "' ('".toList ++ n.ip ++
    "', '".toList ++ x.host ++ "')".toList
def servicedText (n : Node) : Txt :=
  "5-1-".toList ++ intText n.number ++ " : Узел ввода/вывода '".toList ++ n.name ++ "' ('".toList ++ n.ip ++
    "') - отключен для обслуживания".toList

/-- With whom there is no connection, by the number of the kind of partner. -/
def partners : List (Nat × (Int → Txt)) :=
  [(2, fun p => "panel EasyView №".toList ++ intText p ++ ['.']), (3, fun p => "Modbus-device №".toList ++ intText p ++ ['.']),
   (4, fun p => "RFID-reader №".toList ++ intText p ++ ['.']), (5, fun _ => "EasyServer.".toList),
   (6, fun _ => "remote PAC.".toList)]

/-- The function of the network that failed, by its number. -/
def functions : List (Nat × Txt) :=
  [(1, "socket".toList), (2, "bind".toList), (3, "setsockopt".toList), (4, "listen".toList)]

end Ptusa.AlarmText
