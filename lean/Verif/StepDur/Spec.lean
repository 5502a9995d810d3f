import Verif.StepDur.Model
import Verif.Resume.Spec

/-!
# A step that nobody but the clock ends
-/
namespace Ptusa.StepDur

open Operation (St SCfg Env Op Ev)
open Resume (T Paused NoChange)

/-- The call does not ask step `m` to end: no request for another step while the operation runs, no end of the operation;
a start goes on with this step. -/
def Calm (m : Nat) (o : Op) : Ev → Prop
  | .evaluate e => o.cur = .run → e.jump m = none
  | .onExtra .. | .offExtra _ | .switchExtra .. | .pause .. => True
  | .start e e2 k => (k ≤ 0 ∨ k = (m : Int) + 1) ∧ e.zeroDur m = false ∧ NoChange e2
  | .startAgain e e2 => e.zeroDur m = false ∧ NoChange e2
  | .toStep .. | .toNext _ | .turnOff => Paused o
  | .stop .. | .switchOff .. | .finalize => False

/-- The time step has worked when `w` before, after a call `d` ms later. -/
def work (o : Op) (w d : Nat) : Nat := if o.cur = .run then w + d else w

/-- Calls none of which asks the step to end, and passes of the operation that come before its duration is over.  `w` is the time it
has worked. -/
def Within (c : St → SCfg) (lim : Option Nat) (m : Nat) : T → Nat → List (Nat × Ev) → Prop
  | _, _, [] => True
  | x, w, (d, ev) :: g =>
    Calm m x.op ev ∧
    (∀ e, ev = .evaluate e → x.op.cur = .run → Timed lim { x with now := x.now + d } m e ∧ ∀ t, lim = some t → w + d ≤ t) ∧
    ∀ y, Resume.step c x (d, ev) = some y → Within c lim m y (work x.op w d) g

/-- The time the step has worked after these calls: the times between calls while the operation ran. -/
def worked (c : St → SCfg) : Op → Nat → List (Nat × Ev) → Nat
  | _, w, [] => w
  | o, w, (d, ev) :: g =>
    match o.step c ev with
    | none => 0
    | some o' => worked c o' (work o w d) g

end Ptusa.StepDur
