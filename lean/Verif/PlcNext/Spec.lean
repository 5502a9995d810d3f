import Verif.PlcNext.Model

namespace Ptusa.PlcNext.Spec

/-- All calls find a project that can be loaded, and the OPC UA server starts when it is wanted. -/
def Loads (es : List Ev) : Prop := ∀ e, .call e ∈ es → e.lua = true ∧ (e.par = true → e.opcOk = true)

/-- The controller never calls `c` in this history. -/
def Never (c : Ctl) (es : List Ev) : Prop :=
  .ctl c ∉ es ∧ (∀ e, .call e ∈ es → c ∉ e.mid) ∧ ∀ t, .turn t ∈ es → c ∉ t.mid

/-- What is done in turns of the loop: a cycle each, and clients are answered when the last wish was that the OPC UA server be on. -/
def answers (on : Bool) : List Turn → List Act
  | [] => []
  | t :: ts =>
    let q := match t.opc with
      | none => on
      | some c => c.1
    .cycle true :: (if q then [.serve] else []) ++ answers q ts

end Ptusa.PlcNext.Spec
