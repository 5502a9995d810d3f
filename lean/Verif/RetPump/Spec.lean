import Verif.RetPump.Model

/-!
# What is expected of the return pump
-/
namespace Ptusa.RetPump

/-- When there was liquid before the pump last, or the step began, in a history given from its end. -/
def wetAt : List Ev → Nat
  | .step i _ :: _ => i.t
  | .pause i :: _ => i.t
  | .cycle i _ :: h => if i.wet then i.t else wetAt h
  | _ :: h => wetAt h
  | [] => 0

/-- The operator has switched the pump in the current step (history from its end). -/
def byHand : List Ev → Bool
  | .force .. :: _ => true
  | .cycle .. :: h => byHand h
  | _ => false

/-- A cycle or the beginning of a step. -/
def Ev.isCycle : Ev → Bool
  | .cycle .. => true
  | _ => false

end Ptusa.RetPump
