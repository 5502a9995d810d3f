import Verif.Operation.Spec

/-!
# Technological objects: modes, restrictions, availability, numeric commands

Model of `PAC/common/tech_def.cpp` (`tech_object`).  An operation is represented by its current
state; how a command moves it is given by `Operation.diagram` (proved about the model of `operation`
in `Operation/Props.lean`, `C15_follows_diagram`).

Simplifications.
* The answers of user functions (Lua), device checks and the project settings are parameters
  (`Ans`).  User functions are assumed not to command operations themselves while being called; a
  command given at their end is the next event of the history.
* `operations_count` is the number of operations added to the operation manager.
* Messages to the operator and debug output are left out.
-/
namespace Ptusa.TechObj
open Ptusa.Operation

/-- Configuration of an object: `operations_count`, contents of the transitional states of its
operations, and the Lua table `restrictions[ object ]` (tech_def.cpp 466-490, 604-633, 651-705):
`own m i` – `restrictions[obj][m][1][i]` is a number: operation `i` forbids `m`;
`foreign m k i` – `restrictions[obj][m][2][k][i]`: operation `i` of object `k` forbids `m`;
`succ m i` – `restrictions[obj][m][3][i]`: `i` is forbidden after `m` has finished.
Operations and objects are numbered from 1. -/
structure Cfg where
  n : Nat
  has : Nat → St → Bool := fun _ _ => false
  own : Nat → Nat → Bool := fun _ _ => false
  foreign : Nat → Nat → Nat → Bool := fun _ _ _ => false
  succ : Nat → Nat → Bool := fun _ _ => false

/-- `tech_object` (tech_def.h 335-345): the words of `state`, the states of the operations,
`available`. -/
structure Obj where
  words : List (BitVec 32)
  ops : List St
  avail : List (BitVec 32)
  deriving DecidableEq, Repr

/-- Answers of the outside world to one `set_mode`.  The `…Chk` are the results of the user check
functions, `devErr`/`checkMode` those of `check_devices_on_run_state` and `is_check_mode`, `runChk` of
`check_on_run_state` (never negative: operation_mngr.cpp 875-900, 957-970, 1084, 1203, 1971-1980), `luaOn` of the user function for switching on; `restrOn` says that the setting
`P_RESTRICTIONS_MODE` is 0; `offReq`: the evaluation inside the command asks to switch the operation
off, `offReqChk` is the user check of that. -/
structure Ans where
  pauseChk : Int := 0
  stopChk : Int := 0
  startChk : Int := 0
  offChk : Int := 0
  devErr : Bool := false
  checkMode : Int := 1
  restrOn : Bool := true
  runChk : Nat := 0
  luaOn : Int := 0
  offReq : Bool := false
  offReqChk : Int := 0

/-! ### The bit mask -/

/-- Bit `idx` as read by `get_mode`, tech_def.cpp 311. -/
def getBit (w : List (BitVec 32)) (idx : Nat) : BitVec 32 :=
  ((w.getD (idx / 32) 0) >>> (idx % 32)) &&& 1#32

/-- Setting bit `idx`, tech_def.cpp 140, 155, 247. -/
def setBit (w : List (BitVec 32)) (idx : Nat) : List (BitVec 32) :=
  w.set (idx / 32) (w.getD (idx / 32) 0 ||| (1#32 <<< (idx % 32)))

/-- Clearing bit `idx`, tech_def.cpp 206. -/
def clearBit (w : List (BitVec 32)) (idx : Nat) : List (BitVec 32) :=
  w.set (idx / 32) (w.getD (idx / 32) 0 &&& ~~~(1#32 <<< (idx % 32)))

/-- Number of words for `n` operations, tech_def.cpp 36-41. -/
def wordsFor (n : Nat) : Nat := n / 32 + if n % 32 > 0 then 1 else 0

/-- A just created object, tech_def.cpp 17-59. -/
def Obj.fresh (c : Cfg) : Obj :=
  ⟨List.replicate (wordsFor c.n) 0, List.replicate c.n .idle, List.replicate c.n 0⟩

namespace Obj

/-- `tech_object::get_mode`, tech_def.cpp 306-312. -/
def getMode (c : Cfg) (o : Obj) (m : Nat) : Nat :=
  if m > c.n ∨ m = 0 then 0 else (getBit o.words (m - 1)).toNat

/-- `tech_object::get_operation_state`, tech_def.cpp 314-319. -/
def opState (c : Cfg) (o : Obj) (m : Nat) : St :=
  if m > c.n ∨ m = 0 then .idle else o.ops.getD (m - 1) .idle

/-- `tech_object::is_idle`, tech_def.cpp 1340-1351. -/
def isIdle (o : Obj) : Bool := o.words.all fun w => decide (w = 0)

/-- Moves operation `m` by a command (`operation::start/pause/stop/finalize`). -/
def move (c : Cfg) (k : Cmd) (m : Nat) (o : Obj) : Obj :=
  let cur := o.ops.getD (m - 1) .idle
  { o with ops := o.ops.set (m - 1) ((diagram (c.has m) k cur).getD cur) }

/-- `tech_object::check_availability`, tech_def.cpp 597-635. -/
def checkAvail (c : Cfg) (j : Nat) (a : List (BitVec 32)) : List (BitVec 32) :=
  a.mapIdx fun i x => if i + 1 ≠ j ∧ c.own (i + 1) j = true then x + 1 else x

/-- `tech_object::lua_init_mode`, tech_def.cpp 577-595. -/
def initMode (c : Cfg) (m : Nat) (o : Obj) : Obj :=
  let a0 := o.avail.map fun _ => 0#32
  let a1 := ((List.range c.n).map (· + 1)).foldl
    (fun a i => if o.getMode c i = 1 then checkAvail c i a else a) a0
  { o with avail := checkAvail c m a1 }

/-- `tech_object::lua_final_mode`, tech_def.cpp 637-712. -/
def finalMode (c : Cfg) (m : Nat) (o : Obj) : Obj :=
  let a1 := o.avail.mapIdx fun i x => if i + 1 ≠ m ∧ c.own (i + 1) m = true then x - 1 else x
  { o with avail := a1.mapIdx fun i x => if c.succ m (i + 1) = true then x + 1 else x }

/-- Switching off, tech_def.cpp 200-215 (also asked for by `operation_manager::off_mode`,
operation_mngr.h 968-971, when the time of the last step is over). -/
def switchOff (c : Cfg) (m : Nat) (o : Obj) : Obj :=
  (({ o with words := clearBit o.words (m - 1) }).move c .off m).finalMode c m

/-- The evaluation inside `pause`, `stop`, `start` of an operation may ask to switch it off; only
when the command has moved the operation. -/
def nested (c : Cfg) (a : Ans) (m : Nat) (before after : Obj) : Obj :=
  if a.offReq ∧ before.ops ≠ after.ops ∧ a.offReqChk ≤ 0 then after.switchOff c m else after

/-- First operation (from 1) with the given property, up to `n`. -/
def firstOp (n : Nat) (p : Nat → Bool) : Option Nat := ((List.range n).map (· + 1)).find? p

/-- `tech_object::lua_check_on_mode`, tech_def.cpp 458-575.  `ext` is the result of the search in
other objects (see `Plant.search`). -/
def checkOn (c : Cfg) (a : Ans) (ext : Option Nat) (m : Nat) (o : Obj) : Int :=
  let rest : Int := if a.runChk ≠ 0 then 1000 + a.runChk else a.luaOn
  if a.restrOn then
    match firstOp c.n (fun i => c.own m i && o.getMode c i == 1) with
    | some i => 1000 + i
    | none => match ext with
      | some i => 10000 + i
      | none => rest
  else rest

/-- `tech_object::set_mode`, tech_def.cpp 96-304. -/
def setMode (c : Cfg) (a : Ans) (ext : Option Nat) (m : Nat) (newm : Int) (o : Obj) : Obj × Int :=
  if m = 0 then (o, 4)
  else if m > c.n then (o, 3)
  else if newm = 2 then
    if a.pauseChk = 0 then
      let o1 := { o with words := setBit o.words (m - 1) }
      (nested c a m o1 (o1.move c .pause m), 0)
    else (o, a.pauseChk + 200)
  else if newm = 3 then
    if a.stopChk = 0 then
      let o1 := { o with words := setBit o.words (m - 1) }
      (nested c a m o1 (o1.move c .stop m), 0)
    else (o, a.stopChk + 300)
  else
    let want := if newm = 0 then 0 else 1
    if o.getMode c m = want then
      if want = 1 ∧ o.opState c m ≠ .run then
        if a.startChk = 0 then (nested c a m o (o.move c .start m), 0)
        else (o, a.startChk + 400)
      else (o, 1)
    else if want = 0 then
      if a.offChk ≤ 0 then (o.switchOff c m, a.offChk)
      else (o, a.offChk + 100)
    else if a.devErr ∧ a.checkMode = 1 then (o, m + 1000)
    else if o.checkOn c a ext m = 0 then
      let o1 := (o.move c .start m).initMode c m
      ({ o1 with words := setBit o1.words (m - 1) }, 0)
    else (o, o.checkOn c a ext m + 100)

/-- `op->pause()` called by `tech_object::evaluate` on a device error, wrong step parameters or step
time (tech_def.cpp 339-377), always in the state `run`. -/
def failPause (c : Cfg) (a : Ans) (m : Nat) (o : Obj) : Obj :=
  if m = 0 ∨ m > c.n ∨ o.opState c m ≠ .run then o
  else nested c a m o (o.move c .pause m)

/-- Line `MODES` published for operation `m`, tech_def.cpp 828-832. -/
def shownMode (c : Cfg) (o : Obj) (m : Nat) : Nat := if o.opState c m ≠ .idle then 1 else 0

/-- Line `AVAILABILITY` published for operation `m`, tech_def.cpp 843-847. -/
def shownAvail (o : Obj) (m : Nat) : Nat := if o.avail.getD (m - 1) 0 = 0 then 1 else 0

end Obj

/-- The mode command issued by `operation::evaluate` when the jump condition of the current state
`s` holds and leads to the state with code `next` (operation_mngr.cpp 242-395).  Whether an idle
operation asks to be switched on also depends on timers (`auto`). -/
def evalRequest (auto : Bool) (s : St) (next : Int) : Option Int :=
  match s with
  | .idle => if auto then some 1 else none
  | .run => if next = 3 then some 3 else if next = 2 then some 2 else none
  | .starting => if next = 3 then some 3 else if next = 1 then some 1 else none
  | .pausing => if next = 3 then some 3 else if next = 2 then some 2 else none
  | .unpausing => if next = 3 then some 3 else if next = 1 then some 1 else none
  | .stopping => some 3
  | _ => none

/-! ### All objects of a project -/

/-- The objects of a project, `tech_object_manager`. -/
abbrev Plant := List Obj

/-- The search of active operations of other objects that forbid operation `m` of object `k`,
tech_def.cpp 500-536; objects are numbered from 1 (`serial_idx`). -/
def search (cs : List Cfg) (p : Plant) (k m : Nat) : Option Nat :=
  ((List.range p.length).map (· + 1)).findSome? fun l =>
    match cs[l - 1]?, p[l - 1]? with
    | some cl, some ol =>
      Obj.firstOp cl.n fun i =>
        ((cs[k - 1]?.map fun ck => ck.foreign m l i).getD false) && ol.getMode cl i == 1
    | _, _ => none

/-- `set_mode` of object `k` (from 1). -/
def Plant.setMode (cs : List Cfg) (a : Ans) (k m : Nat) (newm : Int) (p : Plant) : Plant × Int :=
  match cs[k - 1]?, p[k - 1]? with
  | some c, some o =>
    let r := o.setMode c a (search cs p k m) m newm
    (p.set (k - 1) r.1, r.2)
  | _, _ => (p, 0)

/-- `op->pause()` by `tech_object::evaluate` of object `k`. -/
def Plant.failPause (cs : List Cfg) (a : Ans) (k m : Nat) (p : Plant) : Plant :=
  match cs[k - 1]?, p[k - 1]? with
  | some c, some o => p.set (k - 1) (o.failPause c a m)
  | _, _ => p

/-- What happens to operations of a project: a mode command (from the operator station, a user
program or the evaluation of an operation), or a pause because of an error. -/
inductive Ev
  | mode (k m : Nat) (newm : Int) (a : Ans)
  | fail (k m : Nat) (a : Ans)

/-- One event. -/
def Plant.step (cs : List Cfg) (p : Plant) : Ev → Plant
  | .mode k m newm a => (p.setMode cs a k m newm).1
  | .fail k m a => p.failPause cs a k m

/-- A history. -/
def Plant.run (cs : List Cfg) (p : Plant) (es : List Ev) : Plant := es.foldl (Plant.step cs) p

/-- The objects as created. -/
def Plant.fresh (cs : List Cfg) : Plant := cs.map Obj.fresh

/-- Parameters of one evaluation of operation `m` of object `k`: `last` – the time of the last step is
over, with the user check `chk`; `jump` – the jump condition of the state holds, with the
target code and the answers to the command; `fails` – errors found afterwards. -/
structure EvalAns where
  last : Option Ans := none
  jump : Option (Int × Bool × Ans) := none
  fails : List Ans := []

/-- One pass of the loop of `tech_object::evaluate` (tech_def.cpp 328-380) with
`operation::evaluate` (operation_mngr.cpp 242-293), as events: the off request of the state's
evaluation, the jump to another state, the pauses because of errors. -/
def evalEvents (cs : List Cfg) (p : Plant) (k m : Nat) (ea : EvalAns) : List Ev :=
  let e1 := match ea.last with
    | some a => [Ev.mode k m 0 a]
    | none => []
  let p1 := p.run cs e1
  let cur := match cs[k - 1]?, p1[k - 1]? with
    | some c, some o => o.opState c m
    | _, _ => .idle
  let e2 := match ea.jump with
    | some j => match evalRequest j.2.1 cur j.1 with
      | some newm => [Ev.mode k m newm j.2.2]
      | none => []
    | none => []
  e1 ++ e2 ++ ea.fails.map fun a => Ev.fail k m a

/-! ### Numeric commands -/

/-- What `tech_object::set_cmd` does with a number written to `CMD`. -/
inductive Action
  | clear                                  -- `cmd = 0`
  | mode (op : Nat) (state : Nat)          -- `set_mode( op, state )`, result in `CMD`
  | state (op : Nat) (state : Nat)         -- `set_mode( op, state )`, result returned
  | extra (op : Nat) (step : Nat) (on : Bool)
  | user (n : Nat)                         -- `lua_exec_cmd( n )`
  | reject
  deriving DecidableEq, Repr

/-- Decoding of `CMD` in `tech_object::set_cmd`, tech_def.cpp 969-1067, for an object with `count`
operations; `val` is the number written, cut to an integer (`isZero`: the number itself was 0, which
differs for fractions).  A negative number becomes a large `u_int`. -/
def decode (count : Nat) (isZero : Bool) (val : Int) : Action :=
  if isZero then .clear
  else
    let mode : Nat := (BitVec.ofInt 32 val).toNat
    if mode ≥ 200000 ∧ mode < 300000 then .extra (mode / 100 - 2000) (mode % 100) true
    else if mode ≥ 300000 ∧ mode < 400000 then .extra (mode / 100 - 3000) (mode % 100) false
    else if mode ≥ 1000 ∧ mode < 2000 then
      if mode - 1000 > count + 1 then .user (mode - 1000) else .mode (mode - 1000) 1
    else if mode ≥ 2000 ∧ mode < 3000 then
      if mode - 2000 > count + 1 then .user (mode - 2000) else .mode (mode - 2000) 0
    else if mode ≥ 100000 ∧ mode < 200000 then .state (mode / 100 - 1000) (mode % 100)
    else .reject

end Ptusa.TechObj
