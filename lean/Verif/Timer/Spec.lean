import Verif.Timer.Model

/-!
# C52: what a timer should show

A history is the list of the calls made so far, the oldest first, each with the time it was made at.
-/
namespace Ptusa.Timer

/-- The time of no call is before that of an earlier one, and none is after `now`. -/
def InOrder (h : List (Tm × Cmd)) (now : Tm) : Prop :=
  h.Pairwise (fun a b => a.1.toNat ≤ b.1.toNat) ∧ ∀ e ∈ h, e.1.toNat ≤ now.toNat

/-- `start`, `pause` or `reset`, not the setting of the countdown. -/
def IsMove (e : Tm × Cmd) : Bool :=
  match e.2 with
  | .countdown _ => false
  | _ => true

/-- In millisecond `t` the timer runs: the last command up to then was `start`. -/
def running (h : List (Tm × Cmd)) (t : Nat) : Bool :=
  match (h.filter (fun e => IsMove e && decide (e.1.toNat ≤ t))).getLast? with
  | some e => e.2 = .start
  | none => false

/-- The time of the last reset, 0 if there was none. -/
def lastReset (h : List (Tm × Cmd)) : Nat :=
  match (h.filter (fun e => decide (e.2 = .reset))).getLast? with
  | some e => e.1.toNat
  | none => 0

/-- The number of milliseconds before `now` in which the timer ran, counted since its last reset. -/
def worked (h : List (Tm × Cmd)) (now : Nat) : Nat :=
  (List.range now).countP (fun t => decide (lastReset h ≤ t) && running h t)

/-- The countdown that was set last, 0 if none was. -/
def countdownOf (h : List (Tm × Cmd)) : Nat :=
  match (h.filterMap (fun e => match e.2 with | .countdown c => some c.toNat | _ => none)).getLast? with
  | some c => c
  | none => 0

end Ptusa.Timer
