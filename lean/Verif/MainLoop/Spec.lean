import Verif.MainLoop.Model
import Verif.Coupler.Spec

/-!
# What the commands given so far ask of an output
-/
namespace Ptusa.MainLoop

open Device (Prog Oper toInt32)

/-- A command to a device: of the program (also of OPC UA clients and of the lamps' manager) or of the operator. -/
inductive Cmd where
  | prog (p : Prog)
  | oper (o : Oper)

/-- What is asked of a device: is it in manual mode, is its output to be on. -/
structure Want where
  manual : Bool := false
  on : Bool := false
  deriving DecidableEq

/-- The commands of the program count outside manual mode only, those of the operator always. -/
def Want.step (w : Want) : Cmd → Want
  | .prog p =>
    if w.manual then w else
      match p with
      | .on => { w with on := true }
      | .off | .instantOff => { w with on := false }
      | .setState n => { w with on := decide (n ≠ 0) }
      | .setValue _ => w
  | .oper (.S v) => { w with on := decide (toInt32 v ≠ some 0) }
  | .oper (.V _) => w
  | .oper (.M v) => if v = .num 0 then { w with manual := false } else if v = .num 1 then { w with manual := true } else w

/-- After all commands. -/
def wanted (l : List Cmd) : Want := l.foldl Want.step {}

/-- The commands given in a pass before the outputs are written. -/
def Cycle.first (c : Cycle) (inp : Nat → Nat → Bool) : List (Nat × Cmd) := (c.prog inp).map fun x => (x.1, .prog x.2)

/-- What an allowed request of an OPC UA client asks of a device. -/
def Req.cmd : Req → Option (Nat × Cmd)
  | .writeState d (some n) => some (d, .prog (.setState n))
  | .writeValue d (some x) => some (d, .prog (.setValue x))
  | _ => none

/-- The commands given in a pass after the outputs were written. -/
def Cycle.second (c : Cycle) : List (Nat × Cmd) :=
  (c.server.map fun x => (x.1, .oper x.2)) ++ (if c.control then c.opc.filterMap Req.cmd else []) ++
    c.lamps.map fun x => (x.1, .prog x.2)

/-- The commands given in passes of the loop. -/
def commands (l : List (Cycle × Rec)) : List (Nat × Cmd) := l.flatMap fun x => x.1.first x.2.inp ++ x.1.second

/-- Those for device `d`. -/
def cmdsFor (d : Nat) (l : List (Nat × Cmd)) : List Cmd := (l.filter fun x => x.1 == d).map fun x => x.2

/-- A command that sets a state by its number. -/
def Cmd.isState : Cmd → Bool
  | .prog (.setState _) | .oper (.S _) => true
  | _ => false

/-- Signals, lamps and sirens get no commands with a number of a state. -/
def OnOff (cfg : Cfg) (l : List (Nat × Cmd)) : Prop := ∀ x ∈ l, cfg.kind x.1 = .signal → x.2.isState = false

/-- Every device has its own channel. -/
def Apart (cfg : Cfg) : Prop := ∀ d d', cfg.place d = cfg.place d' → d = d'

/-- The device has a channel of an existing node. -/
def Wired (cfg : Cfg) (nodes : Nat → Coupler.Node) (d : Nat) : Prop :=
  (cfg.place d).1 < cfg.n ∧ (cfg.place d).2 < (nodes (cfg.place d).1).doCnt

/-- The couplers have at most 255 inputs and 255 outputs each. -/
def Small (nodes : Nat → Coupler.Node) : Prop := ∀ k, (nodes k).doCnt ≤ 255 ∧ (nodes k).diCnt ≤ 255

/-- The numbers of the states the server sends are integers of 32 bits. -/
def Fits (c : Cycle) : Prop := ∀ d v, (d, Oper.S v) ∈ c.server → (toInt32 v).isSome = true

end Ptusa.MainLoop
