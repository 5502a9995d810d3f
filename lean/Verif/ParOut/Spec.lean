import Verif.ParOut.Model
import Verif.StepOut.Spec

/-!
# When a parallel step drives its devices
-/
namespace Ptusa.ParOut

open Operation (SCfg Env OpState)
open StepOut (Devs Free)

/-- The number of a step a call goes to. -/
def goesTo : StepOut.Ev → Option Int
  | .init _ k => some k
  | .toStep _ k => some k
  | _ => none

/-- Step `k` (from 0) is used in parallel only: no call, duration, condition or order of the steps leads to it; its check never refuses it. -/
structure Parallel (c : SCfg) (k : Nat) (h : List Ev) : Prop where
  next : ∀ m, c.next m ≠ k + 1 ∧ (c.next m = -1 → m + 1 ≠ k)
  calls : ∀ v, Ev.main v ∈ h → goesTo v ≠ some ((k : Int) + 1)
  jumps : ∀ v e, Ev.main v ∈ h → v.env = some e → (∀ i, e.jump i ≠ some (k + 1)) ∧ e.checkOk k = true
  checks : ∀ e i, Ev.onExtra e i ∈ h → e.checkOk k = true
  switches : ∀ a b, Ev.switchExtra a b ∉ h

/-- Only step `k` lists the device, to be on. -/
def Only (dev : Option Nat → Devs) (k d : Nat) : Prop :=
  d ∈ (dev (some k)).on ∧ d ∉ (dev (some k)).off ∧ ∀ i, i ≠ some k → Free dev i d

/-- The last command to the device was to switch it on. -/
def isOn (dev : Option Nat → Devs) (d : Nat) (r : OpState) : Bool := StepOut.lastOn d (r.log.flatMap (StepOut.cmds dev))

end Ptusa.ParOut
