import Verif.Operation.Model

/-!
# What it means to go on after a pause
-/
namespace Ptusa.Resume

open Operation (St SCfg Env Op Ev)

/-- A paused operation, or one on its way into the pause or out of it. -/
def Paused (o : Op) : Prop := o.cur = .pausing ∨ o.cur = .pause ∨ o.cur = .unpausing

instance (o : Op) : Decidable (Paused o) := by unfold Paused; infer_instance

/-- The operation gets from `o` to `o'` by the calls given without being anything else than paused. -/
def StaysPaused (c : St → SCfg) : Op → List Ev → Op → Prop
  | o, [], o' => Paused o ∧ o' = o
  | o, v :: h, o' => Paused o ∧ ∃ o1, o.step c v = some o1 ∧ StaysPaused c o1 h o'

/-- Nothing asks for a change of steps. -/
structure NoChange (e : Env) : Prop where
  zeroDur : ∀ i, e.zeroDur i = false
  elapsed : ∀ i, e.elapsed i = false
  jump : ∀ i, e.jump i = none
  onSig : ∀ i, e.onSig i = false
  offSig : ∀ i, e.offSig i = false

/-- The time an operation has worked since it was started: the times between calls during which its state was
`run`; a start from `idle` or `starting` begins anew. -/
def worked (c : St → SCfg) : Op → Nat → List (Nat × Ev) → Nat
  | _, w, [] => w
  | o, w, (d, ev) :: h =>
    match o.step c ev with
    | none => 0
    | some o' =>
      worked c o' (if (o.cur = .idle ∨ o.cur = .starting) ∧ (o'.cur = .starting ∨ o'.cur = .run) ∧ o'.cur ≠ o.cur then 0
        else if o.cur = .run then w + d else w) h

end Ptusa.Resume
