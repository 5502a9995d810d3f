import Verif.Actions.Model

/-!
# Specification of the actions of a step
-/
namespace Ptusa.Actions

/-- `k` is the last group in which device `d` plays a role (`role` lists the devices of the role). -/
def LastIn {G : Type} (role : G → List Nat) (groups : List G) (k : Nat) (g : G) (d : Nat) : Prop :=
  groups[k]? = some g ∧ d ∈ role g ∧
    ∀ (j : Nat) (g' : G), k < j → groups[j]? = some g' → d ∉ role g'

/-- No group has the device in the role. -/
def NotIn {G : Type} (role : G → List Nat) (groups : List G) (d : Nat) : Prop :=
  ∀ g ∈ groups, d ∉ role g

/-- Outputs of a group of an input-to-output action: everything but its first device. -/
def outputs (g : List Nat) : List Nat := g.tail

/-- The device counts as on for a conditional jump: a valve confirms the open position, any other
device is active. -/
def IsOn (e : Env) (d : Nat) : Prop :=
  (e.ty d = .valve ∧ e.opened d = true) ∨ (e.ty d ≠ .valve ∧ e.active d = true)

/-- The device counts as off for a conditional jump. -/
def IsOff (e : Env) (d : Nat) : Prop :=
  (e.ty d = .valve ∧ e.closed d = true) ∨ (e.ty d ≠ .valve ∧ e.active d = false)

/-- The condition of a group of a conditional jump holds. -/
def JumpGroup.Sat (e : Env) (g : JumpGroup) : Prop :=
  (∀ d ∈ g.on, IsOn e d) ∧ (∀ d ∈ g.off, IsOff e d)

/-- A group with at least one condition. -/
def JumpGroup.Configured (g : JumpGroup) : Prop := g.on ≠ [] ∨ g.off ≠ []

/-- The configured decision: the first configured group whose condition holds, and its target. -/
def JumpTo (e : Env) (nextN : List Int) (groups : List JumpGroup) (n : Int) : Prop :=
  ∃ (k : Nat) (g : JumpGroup), groups[k]? = some g ∧ g.Configured ∧ g.Sat e ∧ nextN[k]? = some n ∧
    ∀ (j : Nat) (g' : JumpGroup), j < k → groups[j]? = some g' → ¬ (g'.Configured ∧ g'.Sat e)

/-- Washing is requested in a group: it has no request signals or one of them is active. -/
def WashGroup.Requested (e : Env) (g : WashGroup) : Prop := g.di = [] ∨ ∃ d ∈ g.di, e.active d = true

/-- Every device a group of a wash action commands. -/
def WashGroup.all (g : WashGroup) : List Nat := g.dos ++ g.devs ++ g.rev

/-- No device has two roles in the group. -/
def WashGroup.Disjoint (g : WashGroup) : Prop :=
  (∀ d ∈ g.devs, d ∉ g.dos ∧ d ∉ g.rev) ∧ (∀ d ∈ g.rev, d ∉ g.dos)

/-- Devices of a seat washing action. -/
def SeatCfg.Has (c : SeatCfg) (d : Nat) : Prop := ∃ g ∈ c.up ++ c.lo, d ∈ g

/-- Histories of one seat washing action: it is initialised, evaluated any number of times at any
times and with any parameters, finalised, and so on; in between everything else may change any
command, but the washing flags of its valves are its own. -/
inductive SeatReach (c : SeatCfg) : Bool → Seat → World → Prop
  | start (w : World) : (∀ d, c.Has d → w.seat d = false) → SeatReach c false {} w
  | env {r s w} (w' : World) : SeatReach c r s w → (∀ d, c.Has d → w'.seat d = w.seat d) →
      SeatReach c r s w'
  | init {s w} (now : BitVec 64) (period flipUp flipLo : BitVec 32) : SeatReach c false s w →
      SeatReach c true (seatInit c now period flipUp flipLo s) w
  | eval {s w s' w'} (e : Env) (now : BitVec 64) (flipUp flipLo : BitVec 32) :
      SeatReach c true s w → (∀ d, c.Has d → e.ty d = .valve) →
      seatEval c e now flipUp flipLo s w = some (s', w') → SeatReach c true s' w'
  | fin {s w w'} (e : Env) : SeatReach c true s w → (∀ d, c.Has d → e.ty d = .valve) →
      seatFinal c e s w = some w' → SeatReach c false s w'

/-- Whose turn it is: the position in the list of all groups, upper seats first. -/
def turn (c : SeatCfg) (s : Seat) : Nat :=
  (match s.next with
    | .lower => c.up.length + s.act
    | _ => s.act) % (c.up.length + c.lo.length)

/-- The state that opens the seats of group number `k`. -/
def seatState (c : SeatCfg) (k : Nat) : Int := if k < c.up.length then 2 else 3

/-- The text of all devices in error in a subgroup. -/
def textLen (s : List (Option Nat)) : Nat := (s.map fun | some n => n | none => 0).sum

/-- Devices driven by an action that switches on whole lists. -/
def Drives (devices : List (List (List Nat))) (d : Nat) : Prop := ∃ g ∈ devices, ∃ s ∈ g, d ∈ s

/-- Devices an action of a step may have switched on. -/
def Act.Drives : Act → Nat → Prop
  | .plain devices, d => Actions.Drives devices d
  | .io groups, d => ∃ g ∈ groups, d ∈ outputs g
  | .wash groups, d => ∃ g ∈ groups, d ∈ g.all
  | .seat c s, d => match s.phase with
    | .waiting => False
    | .upper => ∃ g, c.up[s.act]? = some g ∧ d ∈ g
    | .lower => ∃ g, c.lo[s.act]? = some g ∧ d ∈ g
  | .passive, _ => False

/-- The delay of a group has passed: no delay is configured or more time than the delay has elapsed. -/
def Passed (parIdx : List Int) (par : Int → Fl) (elapsed : Nat) (k : Nat) : Prop :=
  parIdx.getD k 0 ≤ 0 ∨ Fl.le (Fl.num elapsed) (par (parIdx.getD k 0)) = false

/-- The step (numbered from 1) has run for its configured maximal time (seconds). -/
def Overdue (maxOf elapsed : Nat → Nat) (n : Nat) : Prop :=
  maxOf (n - 1) ≠ 0 ∧ elapsed (n - 1) ≥ 1000 * maxOf (n - 1)

/-- Valves 0 and 1 with upper seats, valve 2 with a lower seat. -/
def exSeats : SeatCfg := { up := [[0], [1]], lo := [[2]] }

/-- A group with a request signal, a ready signal, a pump and a reversed pump. -/
def exWash : WashGroup := { di := [1], dos := [2], devs := [3], rev := [4] }

end Ptusa.Actions
