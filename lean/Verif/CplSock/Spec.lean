import Verif.CplSock.Model

/-!
# Descriptors
-/
namespace Ptusa.CplSock

/-- Descriptors that are open for a node. -/
def socketsOf (s : Sys) (i : Nat) : List Nat := (s.files.filter fun f => f.2 = .node i).map Prod.fst

/-- Descriptors of the rest of the program. -/
def restOf (s : Sys) : List Nat := (s.files.filter fun f => f.2 = .rest).map Prod.fst

/-- The rest of the program does not close descriptor 0 (the standard input). -/
def Keeps0 (h : List Ev) : Prop := ∀ fd, Ev.restClose fd ∈ h → fd ≠ 0

end Ptusa.CplSock
