import Verif.CritErr.Model

namespace Ptusa.CritErr

/-- Specification: is the error `(c, s, p)` active after a history?  The last call that
concerns it decides. -/
def active (c s : BitVec 32) (p : BitVec 64) : List Call → Bool
  | [] => false
  | h :: t =>
    -- `h` is the most recent call
    match h with
    | .set c' s' p' => if c' = c ∧ s' = s ∧ p' = p then true else active c s p t
    | .reset c' s' p' => if c' = c ∧ s' = s ∧ p' = p then false else active c s p t

/-- The parameter of a call fits in 32 bits. -/
def Call.Fits : Call → Prop
  | .set _ _ p => p.toNat < 2 ^ 32
  | .reset _ _ p => p.toNat < 2 ^ 32

/-- Number of calls of a history (most recent first) that change the set of active errors. -/
def changes : List Call → Nat
  | [] => 0
  | h :: t =>
    changes t + match h with
      | .set c s p => if active c s p t then 0 else 1
      | .reset c s p => if active c s p t then 1 else 0

/-- Number of calls that change the list of errors, in a history (earliest first) that starts in state `m`. -/
def listChanges (m : Mgr) : List Call → Nat
  | [] => 0
  | c :: t => (if (m.step c).errors = m.errors then 0 else 1) + listChanges (m.step c) t

end Ptusa.CritErr
