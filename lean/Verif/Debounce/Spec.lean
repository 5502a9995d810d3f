import Verif.Debounce.Model

/-!
# C53: what the filter should do

A history is the list of the calls of `get_state()`, the oldest first, each with its time and the input it saw.
-/
namespace Ptusa.Debounce

open Valve (Tm)

/-- The calls are in the order of time. -/
def InOrder (h : List (Tm × Bool)) : Prop := h.Pairwise (fun a b => a.1.toNat ≤ b.1.toNat)

/-- Every call was made in the first 2^32 milliseconds (49.7 days) of uptime. -/
def Early (h : List (Tm × Bool)) : Prop := ∀ p ∈ h, p.1.toNat < 2 ^ 32

/-- Every call of `h` made during the last `dt` milliseconds before `now` saw the input `b`. -/
def SteadyFor (h : List (Tm × Bool)) (b : Bool) (now dt : Nat) : Prop := ∀ p ∈ h, now ≤ p.1.toNat + dt → p.2 = b

/-- A device just created, a plain one or an IO-Link one, not later than the calls of `h`. -/
def Fresh (d : Di) (h : List (Tm × Bool)) : Prop :=
  ∃ s, d = Di.init s ∨ ∃ t : Tm, d = Di.initIolink s t ∧ t.toNat < 2 ^ 32 ∧ ∀ p ∈ h, t.toNat ≤ p.1.toNat

end Ptusa.Debounce
