import Verif.ObjMgr.Model

/-! # What the list of objects is for -/
namespace Ptusa.ObjMgr.Spec

open ObjMgr

/-- The objects that were added, in their order. -/
def added (h : List Ev) : List Nat := h.filterMap (fun e => match e with | .add o => some o | _ => none)

/-- The function `eval` was defined last as `b`; in the beginning there is none. -/
def defined (h : List Ev) : Bool :=
  (h.reverse.findSome? (fun e => match e with | .define b => some b | _ => none)).getD false

/-- After the first evaluation the function is neither defined nor taken away. -/
def Fixed (h : List Ev) : Prop := ∀ h1 h2, h = h1 ++ .eval :: h2 → ∀ b, Ev.define b ∉ h2

/-- What an evaluation has to do. -/
def Right (h : List Ev) (fn : Bool) (acts : List Act) : Prop :=
  acts.filterMap (fun a => match a with | .obj o => some o | .luaEval => none) = added h ∧
    acts.count .luaEval = (if fn then 1 else 0) ∧
    ∀ pre post, acts = pre ++ .luaEval :: post → post = []

/-- The lowest number from `i` to `last` of an object where the operation is active. -/
def Lowest (on : List Bool) (i last k : Nat) : Prop :=
  i ≤ k ∧ k ≤ last ∧ on[k]? = some true ∧ ∀ j, i ≤ j → j < k → on[j]? = some false

end Ptusa.ObjMgr.Spec
