import Verif.Motor.Model

/-!
# What motors should do

A history is a list of events, the oldest first, each with its time.
-/
namespace Ptusa.Motor

open Valve (Tm)

/-- The two outputs. -/
def outputs (m : Mt) : Bool × Bool := (m.o, m.r)

/-- The outputs for a state: off, forward, reverse.  A reversible motor of kind `rev` is reversed by a second output
beside the first, others by the second output alone; a motor of one direction runs forward. -/
def wanted (k : Kind) (n : Int) : Bool × Bool :=
  if n = 0 then (false, false)
  else if n = 2 ∧ k = .rev then (true, true)
  else if n = 2 ∧ k ≠ .one then (false, true)
  else (true, false)

/-- The feedback agrees with the outputs: it shows that the motor runs if an output is on; for motors with an error input
there is no error. -/
def agrees (k : Kind) (m : Mt) : Bool := if k = .rev2err then !m.i else m.i == (m.o || m.r)

/-- The events are in the order of time, none is before `t0` and none after `now`. -/
def InOrder (t0 : Tm) (h : List (Tm × Ev)) (now : Tm) : Prop :=
  h.Pairwise (fun a b => a.1.toNat ≤ b.1.toNat) ∧ ∀ e ∈ h, t0.toNat ≤ e.1.toNat ∧ e.1.toNat ≤ now.toNat

/-- Event `e` after the history `pre` gives the motor new time: it changes the outputs, or looks and finds agreement. -/
def Renews (s : Sub) (pOn : Fl) (m0 : Mt) (pre : List (Tm × Ev)) (e : Tm × Ev) : Prop :=
  outputs (run s pOn m0 (pre ++ [e])) ≠ outputs (run s pOn m0 pre) ∨
    (e.2 = .ask ∧ agrees s.kind (run s pOn m0 pre) = true)

end Ptusa.Motor
