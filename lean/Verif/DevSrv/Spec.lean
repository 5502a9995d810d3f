import Verif.DevSrv.Model
import Verif.Tcp.Spec

/-!
# What the server expects of the service of the controller
-/
namespace Ptusa.DevSrv

open Ptusa.Tcp (Byte)

/-- The state after the controller starts (`g_device.cpp:52,192,203-204`); the id of the alarms is set at
the first poll. -/
def St.init : St := ⟨0, 0, 0, 0, none⟩

/-- A sequence of calls: the state afterwards. -/
def runs (s : St) (l : List (Env × Nat × (Nat → Byte))) : St :=
  l.foldl (fun s c => (serve s c.1 c.2.1 c.2.2).1) s

/-- A command text as the server sends it: no zeros, closed by one. -/
def command (code : Byte) (text : List Byte) : List Byte := code :: text ++ [0]

/-- The compressor can be undone: `expand` gives back what was packed. -/
def Lossless (e : Env) (expand : List Byte → List Byte) : Prop :=
  ∀ l, l ≠ [] → ∃ z, e.compress l = some z ∧ z ≠ [] ∧ z.length ≤ l.length + 12 + l.length / 1000 ∧ expand z = l

/-- What the server makes of the data of a reply. -/
def unpacked (e : Env) (expand : List Byte → List Byte) (data : List Byte) : List Byte :=
  if e.compressOn then expand data else data

/-- How carrying out a command of the server ends: 0 for success.  102 is a command to a device or, when the text contains
`__RECMAN`, to the manager of recipes; 104 is a command to the alarms; 106 restores parameters. -/
def outcome (e : Env) (code : Byte) (text : List Byte) : BitVec 32 :=
  if code = 106 then e.restore text
  else if code = 102 ∧ recmanMark <:+: text then e.recman text
  else e.lua text

/-- One call: what the controller is like, the length of the request and the memory with the request. -/
abbrev Call := Env × Nat × (Nat → Byte)

/-- The call asks for the alarms. -/
def Call.polls (c : Call) : Prop := 1 ≤ c.2.1 ∧ c.2.2 0 = 103

instance (c : Call) : Decidable c.polls := by unfold Call.polls; infer_instance

/-- What the answer to a poll shows in a state of the service: critical errors, or alarms of devices and objects (not
before 5 s have passed since the first poll). -/
def shown (s : St) (e : Env) : List Byte × List Byte :=
  (e.pacErr.1, if showDev e (s.firstPoll.getD e.now) then e.devErr.1 else [])

/-- The managers of errors change their id whenever the text they show changes; without changes the id is 0 and the text
empty. -/
def Honest (pac dev : BitVec 16 → List Byte) (c : Call) : Prop :=
  c.1.pacErr.1 = pac c.1.pacErr.2 ∧ c.1.devErr.1 = dev c.1.devErr.2

/-- The clock does not go back. -/
def InOrder (l : List Call) : Prop := l.Pairwise fun a b => a.1.now.toNat ≤ b.1.now.toNat

end Ptusa.DevSrv
