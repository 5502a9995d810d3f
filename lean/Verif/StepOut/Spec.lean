import Verif.StepOut.Model
import Verif.MainLoop.Spec

/-!
# Which outputs a step asks for
-/
namespace Ptusa.StepOut

open Operation (SCfg Env OpState)
open Device (Prog)

/-- The last command for a device was to switch it on. -/
def lastOn (d : Nat) (l : List (Nat × Prog)) : Bool :=
  l.foldl (fun b x => if x.1 = d then (match x.2 with | .on => true | .off => false | _ => b) else b) false

/-- A state is entered before it is used and left before it is entered again. -/
def proper : Bool → List Ev → Bool
  | _, [] => true
  | isIn, .init .. :: h => !isIn && proper true h
  | _, .finalize :: h => proper false h
  | isIn, _ :: h => isIn && proper isIn h

/-- The answers of the outside world in a call. -/
def Ev.env : Ev → Option Env
  | .init e _ => some e
  | .evaluate e => some e
  | .toStep e _ => some e
  | .toNext e => some e
  | .turnOff => none
  | .finalize => none

/-- The durations that are 0 are those of `z`, no condition leads to such a step, and no signal switches on a parallel step. -/
def Quiet (z : Nat → Bool) (e : Env) : Prop := e.zeroDur = z ∧ (∀ i k, e.jump i = some (k + 1) → z k = false) ∧ ∀ i, e.onSig i = false

/-- All the time. -/
def Steady (z : Nat → Bool) (h : List Ev) : Prop := ∀ v ∈ h, ∀ e, v.env = some e → Quiet z e

/-- The current step asks for the device: it is listed to be on and not listed to be off, and the step's duration is not 0. -/
def Asks (z : Nat → Bool) (dev : Option Nat → Devs) (cur : Option Nat) (d : Nat) : Prop :=
  ∃ m, cur = some m ∧ z m = false ∧ d ∈ (dev (some m)).on ∧ d ∉ (dev (some m)).off

/-- The device is not in the lists of a step. -/
def Free (dev : Option Nat → Devs) (i : Option Nat) (d : Nat) : Prop := d ∉ (dev i).on ∧ d ∉ (dev i).off

end Ptusa.StepOut
