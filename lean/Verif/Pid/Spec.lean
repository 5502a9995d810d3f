import Verif.Pid.Model

/-!
# Notions used in the statements about the regulator
-/
namespace Ptusa.Regulator
open Ptusa Fl

/-- The regulator is about to leave its manual mode: it was in manual mode at the last
evaluation, and the mode has been switched off since. -/
def Leaving (p : Pid) : Prop := p.prevManual = true ∧ p.par.isManual.eq 0 = true

/-- Events that neither switch the regulator nor its mode. -/
def Ev.Neutral : Ev → Prop
  | .value _ _ => True
  | .opValue _ _ => True
  | .param _ => True
  | _ => False

/-- Events of the switched-off phase. -/
def Ev.OffOrIo : Ev → Prop
  | .off _ => True
  | .io _ => True
  | _ => False

/-- Parameters used in the examples: gain 1, limits 10..80, interval 1 s. -/
def demo : Params := ⟨1, 10, 0, 1000, 100, 0, 0, 0, 0, 0, 0, 0, 80, 10, 1⟩

/-- Measured value `c` at time `t`, direct action. -/
def at_ (t : Nat) (c : Fl) : Env := ⟨t, fun _ => 0, c, 1⟩

end Ptusa.Regulator
