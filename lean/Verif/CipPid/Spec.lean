import Verif.CipPid.Model

/-!
# What is expected of the regulators of a washing line
-/
namespace Ptusa.CipPid

/-- The largest output: 100, or the parameter for it. -/
def Par.cap (p : Par) : Rat := if 1 / 10 ≤ p.maxOut then p.maxOut else 100

/-- The event does not switch the manual mode on. -/
def Ev.auto : Ev → Prop
  | .set f => ∀ p : Par, p.manual = 0 → (f p).manual = 0
  | _ => True

/-- A calculation. -/
def Ev.calc : Ev → Prop
  | .eval _ _ => True
  | .follow _ _ => True
  | _ => False

/-- Everything but switching on. -/
def Ev.still : Ev → Prop
  | .on _ => False
  | _ => True

/-- The times of the events do not decrease, from `t0` to `t`. -/
def Ordered (t0 : Nat) : List (Nat × Ev) → Nat → Prop
  | [], t => t0 ≤ t
  | e :: h, t => t0 ≤ e.1 ∧ Ordered e.1 h t

/-- `n` calculations with the same value and task, one every `p` milliseconds, the first one at `t`. -/
def steady (cur task : Rat) (t p : Nat) : Nat → List (Nat × Ev)
  | 0 => []
  | n + 1 => (t, .eval cur task) :: steady cur task (t + p) p n

end Ptusa.CipPid
