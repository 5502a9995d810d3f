import Verif.PbInit.Model

/-! # What the library of the controller expects -/
namespace Ptusa.PbInit.Spec

open PbInit

/-- A call that exchanges data, and the device it is for. -/
def exchanges : Call → Option Int
  | .readStart d | .readBytes d | .readEnd d | .writeStart d | .writeBytes d | .writeEnd d => some d
  | _ => none

/-- Data are exchanged only with a device which was opened and configured before. -/
def OnlyOpened (t : Trace) : Prop :=
  ∀ a c r b d, t = a ++ (c, r) :: b → exchanges c = some d →
    (Call.open d, true) ∈ a ∧ ∃ adr o i, (Call.configure d adr o i, true) ∈ a

/-- The watchdog is triggered only after it was set and started. -/
def OnlyStarted (t : Trace) : Prop :=
  ∀ a r b, t = a ++ (Call.trigger, r) :: b → (Call.setWatchdog, true) ∈ a ∧ (Call.startWatchdog, true) ∈ a

/-- Nothing but the question for the error comes after a call that failed. -/
def StopsAtFailure (t : Trace) : Prop :=
  ∀ a c b, t = a ++ (c, false) :: b → ∀ x ∈ b, ∃ d, x.1 = Call.lastError d

/-- The number of the slave: of the last device in the list with its name. -/
def Slave (ds : List (String × Int)) (d : Int) : Prop := ∃ a b, ds = a ++ ("libdps", d) :: b ∧ ∀ x ∈ b, x.1 ≠ "libdps"

end Ptusa.PbInit.Spec
