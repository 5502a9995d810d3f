import Verif.WinCm.Model
/-! # What is expected of the table of sockets -/
namespace Ptusa.WinCm

/-- A socket that was made can be bound and listened on. -/
def InitOs.Bindable (o : InitOs) : Prop := o.bind = true ∧ o.listen = true

/-- The table lists every open socket once and nothing else; while the network is up the listening socket is one of them, otherwise
there are none. -/
structure Tidy (s : St) : Prop where
  once : (s.table.map Ent.sock).Nodup
  same : ∀ n, n ∈ s.opened ↔ n ∈ s.table.map Ent.sock
  up : s.ok = true → s.master ∈ s.opened
  down : s.ok = false → s.opened = []

end Ptusa.WinCm
