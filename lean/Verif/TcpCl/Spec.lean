import Verif.TcpCl.Model

/-!
# What is expected of the connections to devices
-/
namespace Ptusa.TcpCl

/-- No connection fails at once: `connect` succeeds or goes on in the background. -/
def Ev.calm : Ev → Prop
  | .call _ n1 n2 _ => n1.start ≠ .refused ∧ n2.start ≠ .refused
  | .receive _ net _ _ => net.start ≠ .refused
  | _ => True

/-- The times of the events do not decrease. -/
def Ordered (t0 : Nat) : List (Nat × Ev) → Nat → Prop
  | [], t => t0 ≤ t
  | e :: h, t => t0 ≤ e.1 ∧ Ordered e.1 h t

/-- The client waits for an answer. -/
def World.waits (w : World) (k : Nat) : Prop := (w.cl k).link = .on ∧ (w.cl k).result = .busy

/-- The time of the last frame of a client. -/
def World.lastFrame (w : World) (k : Nat) : Option Nat := ((w.out.find? (·.1 == k))).map (·.2.1)

/-- The times of the attempts of a client, the last one first; the creation of the client counts as one. -/
def World.attempts (w : World) (t0 k : Nat) : List Nat := ((w.att.filter (·.1 == k)).map (·.2)) ++ [t0]

/-- Neighbours in a list are related. -/
def Steps (R : Nat → Nat → Prop) : List Nat → Prop
  | a :: b :: l => R a b ∧ Steps R (b :: l)
  | _ => True

/-- The communicator finds nothing in the event. -/
def Ev.quiet : Ev → Prop
  | .pass _ _ => False
  | _ => True

end Ptusa.TcpCl
