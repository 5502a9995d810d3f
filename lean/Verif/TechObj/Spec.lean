import Verif.TechObj.Model

/-!
# Notions used in the statements about technological objects
-/
namespace Ptusa.TechObj
open Ptusa.Operation

/-! ### Histories of one object -/

/-- What happens to the operations of one object; `ext` is the operation of another object found to
forbid the requested one, if any. -/
inductive OEv
  | mode (m : Nat) (newm : Int) (a : Ans) (ext : Option Nat)
  | fail (m : Nat) (a : Ans)

def Obj.step (c : Cfg) (o : Obj) : OEv → Obj
  | .mode m newm a ext => (o.setMode c a ext m newm).1
  | .fail m a => o.failPause c a m

def Obj.run (c : Cfg) (o : Obj) (es : List OEv) : Obj := es.foldl (Obj.step c) o

/-- A history in which every pause or stop command addresses an operation that is on. -/
def Proper (c : Cfg) : Obj → List OEv → Prop
  | _, [] => True
  | o, e :: es =>
    (match e with
      | .mode m newm _ _ => (newm = 2 ∨ newm = 3) → o.getMode c m = 1
      | .fail .. => True) ∧ Proper c (o.step c e) es

/-! ### Availability -/

/-- How many operations that are on forbid operation `i`. -/
def blockers (c : Cfg) (o : Obj) (i : Nat) : Nat :=
  ((List.range c.n).map (· + 1)).countP fun j =>
    decide (j ≠ i) && c.own i j && decide (o.getMode c j = 1)

/-- The operations that have been switched off since the last switching on, seen from the modes
before and after an event. -/
def finished (c : Cfg) (before after : Obj) (f : List Nat) : List Nat :=
  let all := (List.range c.n).map (· + 1)
  if all.any fun j => decide (before.getMode c j = 0 ∧ after.getMode c j = 1) then []
  else f ++ all.filter fun j => decide (before.getMode c j = 1 ∧ after.getMode c j = 0)

/-- The same over a history. -/
def finishedRun (c : Cfg) : Obj → List OEv → List Nat → List Nat
  | _, [], f => f
  | o, e :: es, f => finishedRun c (o.step c e) es (finished c o (o.step c e) f)

/-! ### Refusals -/

/-- The reasons for which a mode command is refused. -/
inductive Reason
  | zeroNumber | tooLarge | already
  | pauseCheck (r : Int) | stopCheck (r : Int) | startCheck (r : Int) | offCheck (r : Int)
  | device
  | restrictedBy (i : Nat) | restrictedByOther (i : Nat)
  | stepsCheck (r : Nat) | userCheck (r : Int)
  deriving DecidableEq

/-- The code of a reason in the manual of the operator station. -/
def Reason.code (m : Nat) : Reason → Int
  | .zeroNumber => 4
  | .tooLarge => 3
  | .already => 1
  | .pauseCheck r => 200 + r
  | .stopCheck r => 300 + r
  | .startCheck r => 400 + r
  | .offCheck r => 100 + r
  | .device => 1000 + m
  | .restrictedBy i => 1100 + i
  | .restrictedByOther i => 10100 + i
  | .stepsCheck r => 1100 + r
  | .userCheck r => 100 + r

/-- Whether and why the command `newm` for operation `m` has to be refused: `on` tells which operations
of the object are on, `running` whether `m` is in the state run. -/
def refusal (c : Cfg) (a : Ans) (ext : Option Nat) (m : Nat) (newm : Int) (on : Nat → Bool)
    (running : Bool) : Option Reason :=
  if m = 0 then some .zeroNumber
  else if c.n < m then some .tooLarge
  else if newm = 2 then (if a.pauseChk = 0 then none else some (.pauseCheck a.pauseChk))
  else if newm = 3 then (if a.stopChk = 0 then none else some (.stopCheck a.stopChk))
  else if newm = 0 then
    if on m then (if a.offChk ≤ 0 then none else some (.offCheck a.offChk)) else some .already
  else if on m then
    if running then some .already
    else if a.startChk = 0 then none else some (.startCheck a.startChk)
  else if a.devErr ∧ a.checkMode = 1 then some .device
  else
    let rest : Option Reason :=
      if a.runChk ≠ 0 then some (.stepsCheck a.runChk)
      else if a.luaOn ≠ 0 then some (.userCheck a.luaOn) else none
    if a.restrOn then
      match ((List.range c.n).map (· + 1)).find? (fun i => c.own m i && on i) with
      | some i => some (.restrictedBy i)
      | none => match ext with
        | some i => some (.restrictedByOther i)
        | none => rest
    else rest

/-! ### Restrictions in the whole project -/

/-- Mode of operation `m` of object `k` (both from 1). -/
def modeOf (cs : List Cfg) (p : Plant) (k m : Nat) : Nat :=
  match cs[k - 1]?, p[k - 1]? with
  | some c, some o => o.getMode c m
  | _, _ => 0

/-- Operation `i` of object `l` forbids operation `m` of object `k`. -/
def forbids (cs : List Cfg) (l i k m : Nat) : Bool :=
  match cs[k - 1]? with
  | some c => (decide (l = k) && c.own m i) || c.foreign m l i
  | none => false

/-- A history of the project in which every pause or stop command addresses an operation that is on
and restrictions are enabled all the time. -/
def ProperAll (cs : List Cfg) : Plant → List Ev → Prop
  | _, [] => True
  | p, e :: es =>
    (match e with
      | .mode k m newm a => a.restrOn = true ∧ ((newm = 2 ∨ newm = 3) → modeOf cs p k m = 1)
      | .fail .. => True) ∧ ProperAll cs (p.step cs e) es

end Ptusa.TechObj
