import Verif.SyncCl.Model

/-!
# What answers should be

Written without the functions of the model.
-/
namespace Ptusa.SyncCl.Spec

open MbClient (Byte)

/-- The answer had arrived completely when it was read, or nothing was received. -/
def Whole (e : Ev) : Prop := e.answer.length ≤ 256 ∧ ∀ k, e.got = .arrived k → e.answer.length ≤ k

/-- Every call that was answered was answered with what the device sent for this very request. -/
def Own : List Ev → List (Option (List Byte)) → Prop
  | e :: es, r :: rs => (∀ a, r = some a → a = e.answer) ∧ Own es rs
  | _, _ => True

/-- Nothing was received: the connection cannot be used any more. -/
def Broken (e : Ev) : Prop := e.sends = false ∨ e.got = .failed

/-- Parts of a stream, one behind the other, perhaps with gaps. -/
inductive Parts : List (List Byte) → List Byte → Prop where
  | nil (l : List Byte) : Parts [] l
  | cons (gap a rest : List Byte) (as : List (List Byte)) (h : Parts as rest) : Parts (a :: as) (gap ++ a ++ rest)

/-- A call on a connection that works: something is received. -/
def Works (e : Ev) : Prop := e.connects = true ∧ e.sends = true ∧ ∃ k, e.got = .arrived k

/-- All that the device sent. -/
def sentBack (h : List Ev) : List Byte := h.flatMap Ev.answer

/-- The answers that calls returned, in order. -/
def returned (r : List (Option (List Byte))) : List (List Byte) := r.filterMap fun x => x

end Ptusa.SyncCl.Spec
