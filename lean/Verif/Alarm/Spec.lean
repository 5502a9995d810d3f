import Verif.Alarm.Model

/-!
# Specification of the alarm of one device

What one device and the operator did, most recent event first.  The functions below only look
at the history; they do not use the alarm automaton.
-/
namespace Ptusa.Alarm

/-- What happened to one device. -/
inductive DEv where
  /-- the alarms were evaluated while the device was (`true`) or was not in error -/
  | looked (bad : Bool)
  /-- the operator accepted the alarm -/
  | accepted
  /-- something else -/
  | other
  deriving DecidableEq, Repr

/-- The device was in error at the last evaluation. -/
def nowBad : List DEv → Bool
  | [] => false
  | .looked b :: _ => b
  | _ :: h => nowBad h

/-- The device was in error at some evaluation. -/
def everBad (h : List DEv) : Bool := h.contains (.looked true)

/-- The last appearance of the error (evaluation with error after one without) has been
accepted. -/
def acknowledged : List DEv → Bool
  | [] => false
  | .accepted :: h => everBad h
  | .looked true :: h => if nowBad h then acknowledged h else false
  | .looked false :: h => acknowledged h
  | .other :: h => acknowledged h

/-- State of the alarm according to the history. -/
def alarmState (h : List DEv) : AState :=
  if nowBad h then (if acknowledged h then .accept else .alarm)
  else if everBad h && !acknowledged h then .ret
  else .normal

/-- What an event of the controller means for the device at position `i` with key `k`. -/
def project (i : Nat) (k : Nat × Nat) : Ev → DEv
  | .eval neg => .looked (neg i)
  | .cmd c key _ => if key = k ∧ c = 100 then .accepted else .other
  | .post _ _ => .other

/-- Keys of the registered elements. -/
def Mgr.keys (m : Mgr) : List (Nat × Nat) := m.items.map (·.1)

/-- The element at position `i` is a device that is in error and its alarm is suppressed
(`sup = true`) or not. -/
def Erring (m : Mgr) (neg : Nat → Bool) (i : Nat) (sup : Bool) : Prop :=
  ∃ k d, m.items[i]? = some (k, .dev d) ∧ neg i = true ∧ isSuppressed d.par = sup

/-- As `Erring`, and the alarm has not been accepted. -/
def Unacked (m : Mgr) (neg : Nat → Bool) (i : Nat) (sup : Bool) : Prop :=
  ∃ k d, m.items[i]? = some (k, .dev d) ∧ neg i = true ∧ isSuppressed d.par = sup ∧
    d.st ≠ .accept

/-- Number of messages an object holds, and their numbers. -/
def msgsAt (m : Mgr) (i : Nat) : List Msg :=
  match m.items[i]? with
  | some (_, .obj o) => o.msgs
  | _ => []

/-- Numbers of all messages of all objects. -/
def allNumbers (m : Mgr) : List Int :=
  m.items.flatMap fun it =>
    match it with
    | (_, .obj o) => o.msgs.map (·.n)
    | _ => []

end Ptusa.Alarm
