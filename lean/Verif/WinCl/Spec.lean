import Verif.WinCl.Model
/-! # What is expected of a client -/
namespace Ptusa.WinCl

/-- The answers that come with a call. -/
def Ev.os : Ev → Option Os
  | .communicate o => some o
  | .send o => some o
  | .recive o => some o
  | .poll o => some o
  | .disconnect => none

/-- The options of every new socket can be set. -/
def Settable (h : List Ev) : Prop := ∀ e ∈ h, ∀ o, e.os = some o → o.opts = true

/-- The client holds exactly the socket of its connection. -/
def Holds (s : St) : Prop := s.opened = if s.link = .off then [] else [s.sock]

end Ptusa.WinCl
