import Mathlib.Data.Rat.Defs
import Mathlib.Algebra.Order.Field.Rat
import Mathlib.Tactic.Linarith

/-!
# Signals of a washing line: ready for washing, empty water tank

Model of `EvalCipReadySignal` (PAC/common/cip_tech_def.cpp lines 6013-6071) with the places that set the loaded recipe (lines 1696-1704,
1806-1816, 2985-3090), and of `waterTankIsEmpty` (lines 7506-7537).

Simplifications: one line; outputs are what this line commanded last (another line or a manual mode can change them); numbers of outputs are
naturals (the conversion of a negative parameter to an unsigned number is undefined); a cycle that is stopped by `EvalBlock` is not in a history.
-/
namespace Ptusa.CipSig

/-! ## Ready for washing -/

/-- Devices of the project: an output by the name `LINEnDOm`, by the name `DOm`, by the index `m` if it is an output. -/
structure Proj where
  byLine : Nat → Option Nat
  byDo : Nat → Option Nat
  byIndex : Nat → Option Nat

/-- Members of the line: `loadedRecipe`, `lastloadedRecipe`, `dev_upr_cip_ready`, the parameter `P_SIGNAL_CIP_READY`, and all outputs. -/
structure Line where
  loaded : Int := -1
  last : Int := -1
  dev : Option Nat := none
  signal : Nat := 0
  on : Nat → Bool := fun _ => false

/-- Command of an output. -/
def put (f : Nat → Bool) (d : Option Nat) (v : Bool) : Nat → Bool := fun i => if d = some i then v else f i

/-- Search of the output (lines 6028-6062); nothing found: lines 6053-6054. -/
def search (p : Proj) (no : Nat) : Option Nat :=
  if 0 < no then
    match p.byLine no with
    | some d => some d
    | none =>
      match p.byDo no with
      | some d => some d
      | none => p.byIndex no
  else none

/-- `EvalCipReadySignal` (lines 6013-6071). -/
def evalReady (p : Proj) (l : Line) : Line :=
  if l.loaded ≠ l.last then
    let l := { l with on := put l.on l.dev false, dev := none, last := l.loaded }
    if 0 ≤ l.loaded then
      let d := search p l.signal
      { l with dev := d, on := put l.on d true }
    else l
  else l

/-- Choice of a recipe (lines 1696-1703): its parameters, among them the number of the output, and its number. -/
def choose (l : Line) : Option (Nat × Nat) → Line
  | some (n, s) => { l with signal := s, loaded := n }
  | none => l

/-- How a cycle ends. -/
inductive Fin where
  /-- nothing special -/
  | go
  /-- the command of a reset without a washing (lines 1806-1816) -/
  | resetIdle
  /-- the end of a washing or of its reset (lines 2985-3090) -/
  | washed
  deriving DecidableEq, Repr

/-- End of a cycle. -/
def finish (l : Line) : Fin → Line
  | .go => l
  | .resetIdle => { l with loaded := -1 }
  | .washed => { l with loaded := -1, on := put l.on l.dev false, dev := none }

/-- One cycle of `evaluate` (lines 701-775): recipes, signal, commands and steps. -/
structure Cycle where
  choice : Option (Nat × Nat) := none
  fin : Fin := .go
  deriving DecidableEq, Repr

/-- One cycle. -/
def cycle (p : Proj) (l : Line) (c : Cycle) : Line := finish (evalReady p (choose l c.choice)) c.fin

/-- Many cycles. -/
def run (p : Proj) (h : List Cycle) : Line := h.foldl (cycle p) {}

/-! ## Water tank -/

/-- What the line reads: the switch for the low level is active, the tank is not used, the level. -/
structure Reading where
  lwl : Bool
  unused : Bool
  level : Rat

/-- `waterTankIsEmpty` (lines 7506-7537): state `waterTankLastEmptyState` and result. -/
def waterEmpty (low delta : Rat) (st : Bool) (r : Reading) : Bool × Bool :=
  if !r.lwl || r.unused then (st, true)
  else if 0 < low then
    if st then
      if low + delta ≤ r.level then (false, false) else (true, true)
    else
      if r.level < low then (true, true) else (false, false)
  else (st, false)

/-- Results of calls in a row, and the state. -/
def waterRun (low delta : Rat) : Bool → List Reading → Bool × List Bool
  | st, [] => (st, [])
  | st, r :: rs =>
    let a := waterEmpty low delta st r
    let b := waterRun low delta a.1 rs
    (b.1, a.2 :: b.2)

end Ptusa.CipSig
