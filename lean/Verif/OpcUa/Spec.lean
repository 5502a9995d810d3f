import Verif.OpcUa.Model

/-!
# What is asked of the OPC UA server
-/
namespace Ptusa.OpcUa

/-- The first device of that name. -/
def firstAt (names : List Txt) (i : Nat) (name : Txt) : Prop := names[i]? = some name ∧ ∀ j, j < i → names[j]? ≠ some name

/-- The server is wanted after a history (the last event first): the last of "on", "off", "reset" is "on". -/
def wanted : List Ev → Bool
  | [] => false
  | .cmd v _ :: before => if v = 1 then true else if v = 0 then false else wanted before
  | .reset :: _ => false
  | .restart _ :: before => wanted before

/-- Since the last start of the program the server has been switched off by a command (the last event first). -/
def switchedOff : List Ev → Bool
  | [] => false
  | .cmd v _ :: before => switchedOff before || (v == 0 && wanted before)
  | .reset :: before => switchedOff before
  | .restart _ :: _ => false

/-- The start of the server succeeds. -/
def Ev.starts : Ev → Prop
  | .cmd _ ok => ok = true
  | .reset => True
  | .restart ok => ok = true

end Ptusa.OpcUa
