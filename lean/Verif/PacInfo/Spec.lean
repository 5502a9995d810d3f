import Verif.PacInfo.Model

/-!
# Specification of the system information
-/
namespace Ptusa.PacInfo

/-- The clock readings of one evaluation are in order and not before `prev`; the controller runs for less than nine
million years. -/
def Clock.After (prev : Nat) (c : Clock) : Prop :=
  prev ≤ c.t0 ∧ c.t0 ≤ c.t1 ∧ c.t1 ≤ c.t2 ∧ c.t2 ≤ c.t3 ∧ c.t3 < 2 ^ 58

/-- Evaluations that follow each other; the previous one began at `p` and ended at `prev`; from the beginning of
one to the end of the next it is at most a day less a second. -/
def Schedule : Nat → Nat → List Clock → Prop
  | _, _, [] => True
  | p, prev, c :: cs => c.After prev ∧ c.t2 ≤ p + 86399000 ∧ Schedule c.t1 c.t3 cs

/-- The time of the last reading. -/
def lastReading (start : Nat) (cs : List Clock) : Nat := (cs.getLast?.map Clock.t3).getD start

/-- Time that passes inside the evaluations between two readings. -/
def inside (cs : List Clock) : Nat := (cs.map fun c => c.t3 - c.t1).sum

/-- Milliseconds of the published days and of the day begun. -/
def uptime (i : Info) : Nat := i.days * 86400000 + i.msec

/-- The published hours, minutes and seconds. -/
def Published (i : Info) : Prop :=
  i.hours < 24 ∧ i.mins < 60 ∧ i.secs < 60 ∧
  i.days * 86400 + i.hours * 3600 + i.mins * 60 + i.secs = uptime i / 1000

/-- Events that neither set the mode nor restart the controller. -/
def Ev.quiet : Ev → Prop
  | .eval _ => True
  | .time _ => True
  | .reset => True
  | _ => False

/-- The evaluations of a history read the clock not before `t`. -/
def Ev.after (t : Nat) : Ev → Prop
  | .eval c => t ≤ c.t0 ∧ c.t0 < 2 ^ 64
  | _ => True

end Ptusa.PacInfo
