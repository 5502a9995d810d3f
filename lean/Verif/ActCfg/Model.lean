/-!
# Configuring the actions of a step

Model of the calls with which the description of the project fills an action: `action::action`, `add_dev`, `clear_dev`, `is_empty`
(operation_mngr.cpp lines 556-565, 638-651, 700-735), `set_param_idx` and the base `set_bool_property`, `set_int_property`
(operation_mngr.h lines 109-127, operation_mngr.cpp lines 721-729), the properties of `jump_if_action` (operation_mngr.cpp lines 1807-1841) and of
`enable_step_by_signal` (lines 1893-1922), and `open_seat_action::add_dev` (lines 1456-1479).  Devices are numbers; texts written to the
log are left out.  What the actions do with their devices is the model `Actions`.
-/
namespace Ptusa.ActCfg

/-- Which properties an action has: none, those of a conditional jump, those of enabling a step by signals. -/
inductive Kind where
  | plain
  | jump
  | enable
  deriving DecidableEq

/-- `subgropups_cnt`, `devices`, `par_idx`, `next_n`, `turn_off_flag` (operation_mngr.h lines 146-155, 417-418, 438). -/
structure Act where
  kind : Kind
  cnt : Nat
  devices : List (List (List Nat))
  parIdx : List Int := []
  nextN : List Int := []
  turnOff : Bool := true
  deriving DecidableEq

/-- The constructor of `action` (operation_mngr.cpp lines 556-565). -/
def Act.new (k : Kind) (cnt : Nat) : Act := { kind := k, cnt := cnt, devices := [List.replicate cnt []] }

/-- `while ( i >= l.size() ) l.push_back( x )`. -/
def grow {α : Type} (l : List α) (i : Nat) (x : α) : List α := l ++ List.replicate (i + 1 - l.length) x

/-- `action::add_dev` (operation_mngr.cpp lines 700-719). -/
def Act.addDev (a : Act) (d g s : Nat) : Act :=
  let f : List (List Nat) → List (List Nat) := fun gr => (grow gr s []).modify s (fun ds => ds ++ [d])
  { a with devices := (grow a.devices g (List.replicate a.cnt [])).modify g f }

/-- `action::clear_dev` (operation_mngr.cpp lines 731-734). -/
def Act.clear (a : Act) : Act := { a with devices := [] }

/-- `action::is_empty` (operation_mngr.cpp lines 638-651). -/
def Act.isEmpty (a : Act) : Bool := a.devices.all (fun gr => gr.all (fun ds => ds.isEmpty))

/-- `action::set_param_idx` (operation_mngr.h lines 109-117). -/
def Act.setPar (a : Act) (p : Nat) (i : Int) : Act := { a with parIdx := (grow a.parIdx p 0).set p i }

/-- `set_int_property` of the action: the base (operation_mngr.cpp lines 721-729) or `jump_if_action` (lines 1807-1830). -/
def Act.setInt (a : Act) (name : String) (i : Nat) (v : Int) : Act × Int :=
  match a.kind with
  | .jump =>
    if name = "next_step_n" ∨ name = "next_state_n" then ({ a with nextN := (grow a.nextN i (-1)).set i v }, 0) else (a, 1)
  | _ => (a, 0)

/-- `set_bool_property` of the action: the base (operation_mngr.h lines 124-127) or `enable_step_by_signal` (operation_mngr.cpp lines
1903-1921). -/
def Act.setBool (a : Act) (name : String) (v : Bool) : Act × Int :=
  match a.kind with
  | .enable => if name = "should_turn_off" then ({ a with turnOff := v }, 0) else (a, 1)
  | _ => (a, 0)

/-- `jump_if_action::get_int_property` (operation_mngr.cpp lines 1832-1840). -/
def Act.getInt (a : Act) (name : String) (i : Nat) : Int :=
  if name = "next_step_n" ∧ i < a.nextN.length then a.nextN.getD i 0 else -1

/-- `enable_step_by_signal::should_turn_off` (operation_mngr.cpp lines 1893-1901). -/
def Act.shouldTurnOff (a : Act) : Bool := if a.isEmpty then true else a.turnOff

/-- The parameter an action uses for its group or subgroup `i` (operation_mngr.cpp lines 775, 855, 1645); 0 is "no parameter". -/
def Act.par (a : Act) (i : Nat) : Int := if a.parIdx.length > i then a.parIdx.getD i 0 else 0

/-- `devices[ g ][ s ]`; `none` when there is no such element (undefined behaviour). -/
def Act.at (a : Act) (g s : Nat) : Option (List Nat) := a.devices[g]?.bind (fun gr => gr[s]?)

/-- A call of the configuration. -/
inductive Call where
  | add (d g s : Nat)
  | clear
  | par (p : Nat) (i : Int)
  | int (name : String) (i : Nat) (v : Int)
  | bool (name : String) (v : Bool)
  deriving DecidableEq

def Act.step (a : Act) : Call → Act × Int
  | .add d g s => (a.addDev d g s, 0)
  | .clear => (a.clear, 0)
  | .par p i => (a.setPar p i, 0)
  | .int n i v => a.setInt n i v
  | .bool n v => a.setBool n v

/-- The action after a list of calls. -/
def Act.run (a : Act) (h : List Call) : Act := h.foldl (fun a c => (a.step c).1) a

/-- `wash_upper_seat_devices`, `wash_lower_seat_devices` of `open_seat_action`. -/
structure Seat where
  upper : List (List Nat) := []
  lower : List (List Nat) := []
  deriving DecidableEq

/-- The body of `open_seat_action::add_dev` for one of the two lists (operation_mngr.cpp lines 1461-1478). -/
def seatAdd (l : List (List Nat)) (d g : Nat) : List (List Nat) :=
  let l := if g ≥ l.length then l ++ [[]] else l
  if g ≥ l.length then l else l.modify g (fun ds => ds ++ [d])

/-- `open_seat_action::add_dev`; `low`: the seat is `V_LOWER_SEAT`. -/
def Seat.addDev (s : Seat) (d g : Nat) (low : Bool) : Seat :=
  if low then { s with lower := seatAdd s.lower d g } else { s with upper := seatAdd s.upper d g }

/-- A call for the action which washes seats; `clear_dev` is that of `action` and does not touch the seats. -/
inductive SeatCall where
  | add (d g : Nat) (low : Bool)
  | clear
  deriving DecidableEq

def Seat.step (s : Seat) : SeatCall → Seat
  | .add d g low => s.addDev d g low
  | .clear => s

def Seat.run (s : Seat) (h : List SeatCall) : Seat := h.foldl Seat.step s

/-- The groups of one kind of seats. -/
def Seat.groups (s : Seat) (low : Bool) : List (List Nat) := if low then s.lower else s.upper

end Ptusa.ActCfg
