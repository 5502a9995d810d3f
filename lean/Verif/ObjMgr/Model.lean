/-!
# The objects of a project as a whole

Model of `tech_object_manager` (PAC/common/tech_def.cpp): `add_tech_object` (lines 1592-1598), `evaluate` (lines 1525-1556),
`get_object_with_active_mode` (lines 1491-1501), `get_tech_objects` (lines 1503-1517), and of `tech_object::set_extra_step`
(lines 1429-1448).  Objects are numbers; what an object does when it is evaluated is the model `TechObj`, here it is one action.  Whether
the project has a Lua function `eval` at a moment is given by the events.
-/
namespace Ptusa.ObjMgr

/-- What is done. -/
inductive Act where
  | obj (o : Nat)
  | luaEval
  deriving DecidableEq

/-- `tech_objects`, the field `serial_idx` of each object, `has_Lua_eval` (0, 1 and 2 are `none`, `some false`, `some true`), and whether
Lua has a function `eval`. -/
structure St where
  objs : List Nat := []
  serial : Nat → Nat := fun _ => 0
  cache : Option Bool := none
  fn : Bool := false

/-- What happens: an object is added, the function `eval` becomes defined or undefined, the objects are evaluated. -/
inductive Ev where
  | add (o : Nat)
  | define (b : Bool)
  | eval
  deriving DecidableEq

/-- `add_tech_object` (tech_def.cpp lines 1592-1598). -/
def St.add (s : St) (o : Nat) : St :=
  { s with objs := s.objs ++ [o], serial := fun x => if x = o then s.objs.length + 1 else s.serial x }

/-- `evaluate` (tech_def.cpp lines 1525-1556). -/
def St.eval (s : St) : St × List Act :=
  let c := match s.cache with
    | none => s.fn
    | some c => c
  ({ s with cache := some c }, s.objs.map .obj ++ (if c then [.luaEval] else []))

def St.step (s : St) : Ev → St × List Act
  | .add o => (s.add o, [])
  | .define b => ({ s with fn := b }, [])
  | .eval => s.eval

/-- The state after a list of events. -/
def St.run (s : St) (h : List Ev) : St := h.foldl (fun s e => (s.step e).1) s

/-- The loop of `get_object_with_active_mode` (tech_def.cpp lines 1491-1501): `on` says for each object whether the operation is
active. -/
def search (on : List Bool) (i last : Nat) : Int :=
  if h : i ≤ last ∧ i < on.length then
    if on[i]'h.2 then (i : Int) else search on (i + 1) last
  else -1
  termination_by on.length - i

/-- `get_tech_objects` (tech_def.cpp lines 1503-1517); `none` is the stub. -/
def St.get (s : St) (i : Nat) : Option Nat := s.objs[i]?

/-- What an operation is told about one of its steps. -/
inductive Extra where
  | on (op : Nat) (step : Int)
  | off (op : Nat) (step : Int)
  deriving DecidableEq

/-- `set_extra_step` of an object with `count` operations (tech_def.cpp lines 1429-1448): result and what is done. -/
def setExtra (count op : Nat) (step cmd : Int) : Int × Option Extra :=
  if op > count ∨ op = 0 then (1, none)
  else if cmd = 0 then (0, some (.off op step))
  else if cmd = 1 then (0, some (.on op step))
  else (0, none)

end Ptusa.ObjMgr
