import Verif.Siren.Model

/-!
# What the lamps and the siren should tell
-/
namespace Ptusa.Siren

open Ptusa.Timer (Tm)
open Ptusa.Alarm (Erring Unacked isSuppressed)

/-- The controller as it is started at `t0` with the alarm list `m`. -/
def Sys.start (t0 : Tm) (installed builtIn : Bool) (m : Alarm.Mgr) : Sys :=
  ⟨m, CritErr.Mgr.init, Sir.init t0 installed builtIn⟩

/-- The lamps are driven automatically at time `now`: all are there, the start delay of 5 s is
over, manual mode is off. -/
def InService (s : Sys) (now : Tm) : Prop :=
  s.sir.installed = true ∧ s.sir.manual = false ∧ s.sir.startT.toNat + 5000 ≤ now.toNat

/-- The device at position `i` has just come into error: it is in error, its alarm is not
suppressed, and it was not in error at the previous evaluation. -/
def Fresh (m : Alarm.Mgr) (neg : Nat → Bool) (i : Nat) : Prop :=
  ∃ k d, m.items[i]? = some (k, .dev d) ∧ neg i = true ∧ isSuppressed d.par = false ∧
    (d.st = .normal ∨ d.st = .ret)

/-- No suppressed device in error is registered after position `i`. -/
def NotHidden (m : Alarm.Mgr) (neg : Nat → Bool) (i : Nat) : Prop :=
  ∀ j, i < j → ¬ Erring m neg j true

/-- There is a critical error. -/
def Critical (s : Sys) : Prop := ∃ e, e ∈ s.crit.errors

/-- Some technological object holds a message. -/
def HasMessage (m : Alarm.Mgr) : Prop :=
  ∃ (i : Nat) (k : Nat × Nat) (o : Alarm.Obj), m.items[i]? = some (k, .obj o) ∧ o.msgs ≠ []

/-- Is an object important: its Lua function says so, or, when it has none, some operation runs. -/
def TObj.Important (o : TObj) : Prop :=
  if o.hasFun then ∃ r, o.answer = some r ∧ 0 < r else ∃ w ∈ o.words, w ≠ 0

/-- The times of the control cycles. -/
def times (es : List Ev) : List Tm :=
  es.filterMap fun e => match e with
    | .cycle now _ _ => some now
    | _ => none

/-- The clock never goes back. -/
def Ordered (ts : List Tm) : Prop := ts.Pairwise fun a b => a.toNat ≤ b.toNat

/-- The event is not a control cycle. -/
def Ev.Between : Ev → Prop
  | .cycle _ _ _ => False
  | _ => True

/-- Number of calls that set or reset a critical error. -/
def critCalls : List Ev → Nat
  | [] => 0
  | .crit _ :: es => critCalls es + 1
  | _ :: es => critCalls es

/-- A lamp that blinks, what it blinks for and its half period. -/
inductive Blinking where
  | red
  | yellow
  deriving DecidableEq

/-- Is it lit? -/
def Blinking.lit (l : Blinking) (s : Sys) : Bool :=
  match l with
  | .red => s.sir.red
  | .yellow => s.sir.yellow

/-- There is something to show: a critical error or a visible alarm; a message. -/
def Blinking.Reason (l : Blinking) (s : Sys) (neg : Nat → Bool) : Prop :=
  match l with
  | .red => s.sir.builtIn = false ∧
      (Critical s ∨ ∃ i, Erring s.alarm neg i false ∧ NotHidden s.alarm neg i)
  | .yellow => HasMessage s.alarm

/-- Half period in ms. -/
def Blinking.half : Blinking → Nat
  | .red => 250
  | .yellow => 1000

/-- A stretch of the history in which every cycle is in service, has a reason to blink and leaves
the lamp lit (`x = true`) or dark; the times of these cycles. -/
inductive Steady (l : Blinking) (x : Bool) : Sys → List Ev → List Tm → Prop
  | nil (s : Sys) : Steady l x s [] []
  | cycle {s : Sys} {now : Tm} {neg : Nat → Bool} {objs : List TObj} {es : List Ev} {ts : List Tm} :
      InService s now → l.Reason s neg → l.lit (s.step (.cycle now neg objs)) = x →
      Steady l x (s.step (.cycle now neg objs)) es ts →
      Steady l x s (.cycle now neg objs :: es) (now :: ts)
  | other {s : Sys} {e : Ev} {es : List Ev} {ts : List Tm} :
      e.Between → Steady l x (s.step e) es ts → Steady l x s (e :: es) ts

/-- A stretch of the history in which every cycle is in service and has a reason to blink; the times of these cycles and
what the lamp looks like after each. -/
inductive Shows (l : Blinking) : Sys → List Ev → List (Tm × Bool) → Prop
  | nil (s : Sys) : Shows l s [] []
  | cycle {s : Sys} {now : Tm} {neg : Nat → Bool} {objs : List TObj} {es : List Ev} {ts : List (Tm × Bool)} :
      InService s now → l.Reason s neg → Shows l (s.step (.cycle now neg objs)) es ts →
      Shows l s (.cycle now neg objs :: es) ((now, l.lit (s.step (.cycle now neg objs))) :: ts)
  | other {s : Sys} {e : Ev} {es : List Ev} {ts : List (Tm × Bool)} :
      e.Between → Shows l (s.step e) es ts → Shows l s (e :: es) ts

end Ptusa.Siren
