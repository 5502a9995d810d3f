import Mathlib.Data.Rat.Init

/-!
# Initial values of the parameters of an object

Model of `params_manager::reset_to_default` (PAC/common/param_ex.cpp lines 117-155) as far as it concerns one object:
`tech_object_manager::init_params` and `init_runtime_params` (PAC/common/tech_def.cpp lines 1451-1479), `tech_object::init_params`,
`init_runtime_params` (lines 80-94), `lua_init_params` and `lua_init_runtime_params` (lines 714-788), `set_param` (lines 1135-1156), and of the
values a washing line gives to its run-time parameters in `initline` (PAC/common/cip_tech_def.cpp lines 1014-1039).

Each Lua function of the project is the list of the assignments it makes to parameters of this object (a function that does not exist
is the empty list); that it stops with an error is not modelled.  Values are rational numbers, also for whole parameters.  That the
saved bytes survive is the model `Params`.
-/
namespace Ptusa.ParInit

/-- The four lists of parameters of an object: `par_float`, `par_uint`, `rt_par_float`, `rt_par_uint`. -/
inductive Which where
  | parF
  | parU
  | rtF
  | rtU
  deriving DecidableEq

/-- Is it one of the lists kept without power? -/
def Which.saved : Which → Bool
  | .parF => true
  | .parU => true
  | .rtF => false
  | .rtU => false

/-- One assignment to an element. -/
structure Asg where
  w : Which
  i : Nat
  v : Rat

/-- Values of all parameters, numbered from one. -/
abbrev Vals := Which → Nat → Rat

/-- What the project says about an object: the sizes of the lists, what the functions `init_params_uint`, `init_params_float`,
`init_rt_params_uint`, `init_rt_params_float` of the object, `init_params` of the project, `init_runtime_params` of the object assign, and
what is assigned when the object is set up at a start (`initline`). -/
structure Project where
  count : Which → Nat
  uint : List Asg := []
  float : List Asg := []
  rtUint : List Asg := []
  rtFloat : List Asg := []
  project : List Asg := []
  runtime : List Asg := []
  own : List Asg := []

/-- `parameters::operator[]` on the left (param_ex.h lines 191-200): an element outside the list is the stub. -/
def assign (c : Which → Nat) (v : Vals) (a : Asg) : Vals := fun w i =>
  if w = a.w ∧ i = a.i ∧ 1 ≤ i ∧ i ≤ c w then a.v else v w i

def assignAll (c : Which → Nat) (v : Vals) (l : List Asg) : Vals := l.foldl (assign c) v

/-- `reset_to_0` of the saved lists, or of the others. -/
def zero (saved : Bool) (v : Vals) : Vals := fun w i => if w.saved = saved then 0 else v w i

/-- Values in memory and values kept without power. -/
structure St where
  ram : Vals
  nv : Vals

/-- `tech_object::lua_init_params` (tech_def.cpp lines 714-777) and `init_params` of the project (lines 1458-1466). -/
def initParams (p : Project) (v : Vals) : Vals :=
  let v := zero true v
  let v := assignAll p.count v p.uint
  let v := assignAll p.count v p.float
  let v := assignAll p.count v p.rtUint
  let v := assignAll p.count v p.rtFloat
  assignAll p.count v p.project

/-- `tech_object::lua_init_runtime_params` (tech_def.cpp lines 782-788). -/
def initRuntime (p : Project) (v : Vals) : Vals := assignAll p.count (zero false v) p.runtime

/-- `reset_to_default` (param_ex.cpp lines 117-155): `memset`, the functions, and `save`. -/
def St.reset (s : St) (p : Project) : St :=
  let v := initRuntime p (initParams p (zero true s.ram))
  { ram := v, nv := v }

/-- A start (common/lua_manager.cpp lines 258-351): the saved parameters are read and the others are zero, the object is set up by the
scripts of the project, and then the parameters are reset if their number changed (param_ex.cpp lines 89-115). -/
def St.start (s : St) (p : Project) (changed : Bool) : St :=
  let s1 : St := { s with ram := assignAll p.count (zero false s.nv) p.own }
  if changed then s1.reset p else s1

/-- `set_param` (tech_def.cpp lines 1135-1156). -/
def St.set (s : St) (p : Project) (a : Asg) : St :=
  { ram := assign p.count s.ram a, nv := if a.w.saved then assign p.count s.nv a else s.nv }

/-- What happens: a start, the command to reset, a parameter is set. -/
inductive Ev where
  | start (changed : Bool)
  | reset
  | set (a : Asg)

def St.step (p : Project) (s : St) : Ev → St
  | .start ch => s.start p ch
  | .reset => s.reset p
  | .set a => s.set p a

def St.run (p : Project) (s : St) (h : List Ev) : St := h.foldl (St.step p) s

/-- The assignments of `cipline_tech_object::initline` to the run-time parameters of the two regulators and of the supervision of flow
(cip_tech_def.cpp lines 1014-1039), for the numbers `P_R_NO_FLOW = n`, `PIDP_Z = z`, `PIDF_Z = f` (cip_tech_def.h lines 322-354). -/
def cipOwn (n z f : Nat) : List Asg :=
  [⟨.rtF, n, 2⟩, ⟨.rtF, n + 1, 20⟩, ⟨.rtF, n + 2, 20⟩, ⟨.rtF, n + 3, 20⟩,
   ⟨.rtF, z, 95⟩, ⟨.rtF, z + 1, 2⟩, ⟨.rtF, z + 2, 30⟩, ⟨.rtF, z + 3, 1 / 5⟩, ⟨.rtF, z + 4, 500⟩, ⟨.rtF, z + 5, 130⟩,
   ⟨.rtF, z + 6, 0⟩, ⟨.rtF, z + 7, 30⟩, ⟨.rtF, z + 8, 0⟩, ⟨.rtF, z + 9, 30⟩, ⟨.rtF, z + 10, 0⟩,
   ⟨.rtF, f, 15⟩, ⟨.rtF, f + 1, 1 / 2⟩, ⟨.rtF, f + 2, 10⟩, ⟨.rtF, f + 3, 1 / 10⟩, ⟨.rtF, f + 4, 1000⟩, ⟨.rtF, f + 5, 40⟩,
   ⟨.rtF, f + 6, 0⟩, ⟨.rtF, f + 7, 2⟩, ⟨.rtF, f + 8, 0⟩, ⟨.rtF, f + 9, 15⟩, ⟨.rtF, f + 10, 0⟩]

end Ptusa.ParInit
