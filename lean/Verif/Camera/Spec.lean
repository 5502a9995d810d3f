import Verif.Camera.Model

/-!
# What the user of a camera knows
-/
namespace Ptusa.Camera

/-- The last command; the output is off at first. -/
def commanded (h : List Ev) : Bool :=
  match h.reverse.findSome? (fun e => match e with | .cmd n => some n | _ => none) with
  | some n => n != 0
  | none => false

/-- When the camera was last seen ready; at first the time of the start. -/
def lastReady (t0 : BitVec 64) (h : List Ev) : BitVec 64 :=
  (h.reverse.findSome? (fun e => match e with | .eval t true _ => some t | _ => none)).getD t0

/-- The input "ready" in the last cycle. -/
def readyNow (h : List Ev) : Bool :=
  (h.reverse.findSome? (fun e => match e with | .eval _ rd _ => some rd | _ => none)).getD false

/-- The input "result 2" in the last cycle. -/
def second (h : List Ev) : Bool :=
  (h.reverse.findSome? (fun e => match e with | .eval _ _ r => some r | _ => none)).getD false

/-- At the time `now` the camera has not been ready for less than the configured time (in ms). -/
def patient (par : Fl) (t0 : BitVec 64) (h : List Ev) (now : BitVec 64) : Prop :=
  Fl.lt (.num (Time.stepElapsed (lastReady t0 h) now).toNat) par = true

end Ptusa.Camera
