/-!
# Alarms of devices and messages of technological objects:
`common/PAC-driver/g_errors.{h,cpp}`, `tech_object::set_err_msg` (`PAC/common/tech_def.cpp`)
-/
namespace Ptusa.Alarm

/-- `ALARM_STATE` (`g_errors.h:37-43`). -/
inductive AState where
  | normal
  | alarm
  | ret
  | accept
  deriving DecidableEq, Repr

/-- The static flags (`g_errors.cpp:13-17`) and the local `is_new_error_state` of
`errors_manager::evaluate`. -/
structure Flags where
  anyError   : Bool
  anyNoAck   : Bool
  newError   : Bool
  anyMessage : Bool
  newState   : Bool
  deriving DecidableEq, Repr

/-- Values set at the start of `errors_manager::evaluate` (`g_errors.cpp:362-367`). -/
def Flags.clear : Flags := ⟨false, false, false, false, false⟩

/-- `P_IS_SUPPRESS` (`g_errors.h:221`). -/
def suppressBit : BitVec 32 := 4

/-- `err_par[ P_PARAM_N ] & P_IS_SUPPRESS`. -/
def isSuppressed (par : BitVec 32) : Bool := (par &&& suppressBit) != 0

/-- `tech_dev_error`: alarm state and parameter word. -/
structure Dev where
  st  : AState
  par : BitVec 32
  deriving DecidableEq, Repr

/-- `tech_dev_error::evaluate` (`g_errors.cpp:70-125`); `neg` is `get_state() < 0`. -/
def Dev.evaluate (d : Dev) (neg : Bool) (f : Flags) : Dev × Flags :=
  if neg then
    let r : AState × Flags :=
      match d.st with
      | .accept => (.accept, f)
      | .alarm => (.alarm, { f with anyNoAck := true })
      | .normal => (.alarm, { f with newState := true, newError := true, anyNoAck := true })
      | .ret => (.alarm, { f with newState := true, newError := true, anyNoAck := true })
    let f2 := { r.2 with anyError := true }
    let f3 := if isSuppressed d.par then
        { f2 with anyError := false, newError := false, anyNoAck := false }
      else f2
    ({ d with st := r.1 }, f3)
  else
    match d.st with
    | .normal => (d, f)
    | .ret => (d, f)
    | .accept => ({ d with st := .normal }, { f with newState := true })
    | .alarm => ({ d with st := .ret }, { f with newState := true })

/-- `tech_dev_error::set_cmd` (`g_errors.cpp:146-205`); result code 0 = done. -/
def Dev.setCmd (d : Dev) (cmd : Nat) : Dev × Nat :=
  if cmd = 200 then ({ d with par := d.par ||| suppressBit }, 0)
  else if cmd = 201 then ({ d with par := (d.par ||| suppressBit) ^^^ suppressBit }, 0)
  else if cmd = 100 then
    match d.st with
    | .ret => ({ d with st := .normal }, 0)
    | .alarm => ({ d with st := .accept }, 0)
    | _ => (d, 1)
  else (d, 2)

/-- `err_info` of a technological object: number and contents (type and text). -/
structure Msg where
  n    : Int
  text : Nat
  deriving DecidableEq, Repr

/-- `tech_obj_error` with the message list of its object. -/
structure Obj where
  msgs      : List Msg
  prevSize  : Nat
  wasSetCmd : Bool
  deriving DecidableEq, Repr

/-- `tech_obj_error::evaluate` (`g_errors.cpp:242-256`). -/
def Obj.evaluate (o : Obj) (f : Flags) : Obj × Flags :=
  let r :=
    if o.msgs.length ≠ o.prevSize ∨ o.wasSetCmd then
      ({ o with prevSize := o.msgs.length, wasSetCmd := false }, { f with newState := true })
    else (o, f)
  (r.1, if o.msgs.isEmpty then r.2 else { r.2 with anyMessage := true })

/-- `tech_obj_error::set_cmd` (`g_errors.cpp:258-290`): any command deletes the first message
with the given number. -/
def Obj.setCmd (o : Obj) (n : Int) : Obj × Nat :=
  if o.msgs.any (·.n == n) then
    ({ o with msgs := o.msgs.eraseP (·.n == n), wasSetCmd := true }, 0)
  else (o, 1)

/-- `E_MAX_ERRORS_SIZE` (`tech_def.h:360`). -/
def maxMsgs : Nat := 10

/-- An element of `s_errors_vector`. -/
inductive Item where
  | dev (d : Dev)
  | obj (o : Obj)
  deriving DecidableEq, Repr

/-- `errors_manager` (with the key `(get_object_type(), get_object_n())` of every element),
the last computed flags, and the static message counter of `set_err_msg`
(`tech_def.cpp:1176`). -/
structure Mgr where
  items   : List ((Nat × Nat) × Item)
  flags   : Flags
  id      : BitVec 16
  counter : Int
  deriving DecidableEq, Repr

/-- The loop of `errors_manager::evaluate` (`g_errors.cpp:369-372`) over the elements from
position `i` on; `neg j` tells whether the device behind the element at position `j` reports a
negative state. -/
def evalItems (neg : Nat → Bool) (i : Nat) :
    List ((Nat × Nat) × Item) → Flags → List ((Nat × Nat) × Item) × Flags
  | [], f => ([], f)
  | (k, .dev d) :: rest, f =>
    let r := d.evaluate (neg i) f
    let rs := evalItems neg (i + 1) rest r.2
    ((k, .dev r.1) :: rs.1, rs.2)
  | (k, .obj o) :: rest, f =>
    let r := o.evaluate f
    let rs := evalItems neg (i + 1) rest r.2
    ((k, .obj r.1) :: rs.1, rs.2)

/-- `errors_manager::evaluate` (`g_errors.cpp:360-378`). -/
def Mgr.evaluate (m : Mgr) (neg : Nat → Bool) : Mgr :=
  let r := evalItems neg 0 m.items Flags.clear
  { m with items := r.1, flags := r.2, id := if r.2.newState then m.id + 1 else m.id }

/-- Search and command execution of `errors_manager::set_cmd` (`g_errors.cpp:415-432`): the
first element with the key; result 0 = state changed. -/
def cmdItems (cmd : Nat) (key : Nat × Nat) (n : Int) :
    List ((Nat × Nat) × Item) → List ((Nat × Nat) × Item) × Nat
  | [] => ([], 1)
  | (k, it) :: rest =>
    if k = key then
      match it with
      | .dev d => ((k, .dev (d.setCmd cmd).1) :: rest, (d.setCmd cmd).2)
      | .obj o => ((k, .obj (o.setCmd n).1) :: rest, (o.setCmd n).2)
    else
      ((k, it) :: (cmdItems cmd key n rest).1, (cmdItems cmd key n rest).2)

/-- `errors_manager::set_cmd` (`g_errors.cpp:408-449`). -/
def Mgr.setCmd (m : Mgr) (cmd : Nat) (key : Nat × Nat) (n : Int) : Mgr :=
  let r := cmdItems cmd key n m.items
  { m with items := r.1, id := if r.2 = 0 then m.id + 1 else m.id }

/-- The end of `tech_object::set_err_msg` (`tech_def.cpp:1287-1301`): the message is appended
only when there are fewer than 10. -/
def Item.posted (c : Int) (text : Nat) : Item → Item
  | .obj o => .obj (if o.msgs.length < maxMsgs then { o with msgs := o.msgs ++ [⟨c, text⟩] } else o)
  | .dev d => .dev d

/-- `tech_object::set_err_msg` (`tech_def.cpp:1172-1305`) of the object at position `i`: the
counter always advances (its overflow after 2^31 messages is not modelled). -/
def Mgr.post (m : Mgr) (i : Nat) (text : Nat) : Mgr :=
  { m with
    counter := m.counter + 1
    items := m.items.mapIdx fun j it =>
      (it.1, if j = i then it.2.posted (m.counter + 1) text else it.2) }

/-- `errors_manager::reset_errors_params` (`g_errors.cpp:400-406`). -/
def Mgr.resetParams (m : Mgr) : Mgr :=
  { m with items := m.items.map fun it =>
      match it with
      | (k, .dev d) => (k, .dev { d with par := 0 })
      | other => other }

/-- Events. -/
inductive Ev where
  | eval (neg : Nat → Bool)
  | cmd (cmd : Nat) (key : Nat × Nat) (n : Int)
  | post (i : Nat) (text : Nat)

/-- One event. -/
def Mgr.step (m : Mgr) : Ev → Mgr
  | .eval neg => m.evaluate neg
  | .cmd c k n => m.setCmd c k n
  | .post i t => m.post i t

/-- A history. -/
def Mgr.run (m : Mgr) (es : List Ev) : Mgr := es.foldl Mgr.step m

/-- What the alarm list sent to the server shows (`save_as_Lua_str`, `g_errors.cpp:38-68`,
`208-240`): devices with a visible alarm (state, suppress flag), messages of objects. -/
inductive Shown where
  | dev (key : Nat × Nat) (st : AState) (suppress : Bool)
  | msg (key : Nat × Nat) (m : Msg)
  deriving DecidableEq, Repr

/-- The shown alarm list. -/
def Mgr.shown (m : Mgr) : List Shown :=
  m.items.flatMap fun it =>
    match it with
    | (k, .dev d) => if d.st = .normal then [] else [.dev k d.st (isSuppressed d.par)]
    | (k, .obj o) => o.msgs.map (.msg k)

/-- Text of the error shown for a counter (`base_counter::get_error_description`,
`PAC/common/device/device.cpp:1283-1304`, the branch of a negative state): -10 pulse
count, -12 lower limit of the flow channel, -13 upper limit, otherwise the common text
(`STATES`, `device/base.h:171-174`). -/
def counterText (state : Int) : Nat :=
  if state = -10 then 1 else if state = -12 then 2 else if state = -13 then 3 else 0

/-- The alarm list with the error texts: `text i` is what `get_error_description` of the device
at position `i` returns at the moment (`g_errors.cpp:50-51`). -/
def Mgr.shownText (m : Mgr) (text : Nat → Nat) : List (Nat × Shown) :=
  (m.items.mapIdx fun i it =>
    match it with
    | (k, .dev d) => if d.st = .normal then [] else [(text i, .dev k d.st (isSuppressed d.par))]
    | (k, .obj o) => o.msgs.map fun x => (0, .msg k x)).flatten

end Ptusa.Alarm
