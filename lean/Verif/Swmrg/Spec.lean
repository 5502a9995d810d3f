import Verif.Swmrg.Model

/-!
# What a guard of readers and writers should do
-/
namespace Ptusa.Swmrg

/-- The thread has access, shared or exclusive. -/
def St.Reads (s : St) (i : Nat) : Prop := s.ths[i]? = some .reads
def St.Writes (s : St) (i : Nat) : Prop := s.ths[i]? = some .writes

/-- The thread has asked for access and has none yet. -/
def St.Waits (s : St) (i : Nat) : Prop := s.ths[i]? = some .waitR ∨ s.ths[i]? = some .waitW

/-- A state which some history of `n` threads leads to. -/
def Reached (n : Nat) (s : St) : Prop := ∃ h, run (start n) h = some s

/-- A step which finishes what was begun: it is no new request. -/
def Act.Finishes (a : Act) : Prop := a ≠ .askR ∧ a ≠ .askW

/-- How many readings begin in a history, by waking or by asking. -/
def readings (s : St) : List (Nat × Act) → Nat
  | [] => 0
  | (i, a) :: l => match step s i a with
    | none => 0
    | some s' => (if s.ths[i]? ≠ some .reads ∧ s'.ths[i]? = some .reads then 1 else 0) + readings s' l

/-- Thread `w` waits for exclusive access all along the history. -/
def WaitsAlong (w : Nat) (s : St) : List (Nat × Act) → Prop
  | [] => s.ths[w]? = some .waitW
  | (i, a) :: l => s.ths[w]? = some .waitW ∧ ∀ s', step s i a = some s' → WaitsAlong w s' l

end Ptusa.Swmrg
