import Verif.IoConf.Model

/-!
# What a project says about its nodes
-/
namespace Ptusa.IoConf

/-- What was said: the number of nodes, and for each node, once it was added, its arguments and the analog channels (type and
offset) that were set since. -/
structure Said where
  count : Nat := 0
  node : Nat → Option Args := fun _ => none
  ao : Nat → Nat → Nat × Nat := fun _ _ => (0, 0)
  ai : Nat → Nat → Nat × Nat := fun _ _ => (0, 0)

/-- What a call says. -/
def Said.next (s : Said) : Call → Said
  | .init n => { count := n.toNat }
  | .add i a =>
    if i < s.count then
      { s with
        node := fun k => if k = i then some a else s.node k
        ao := fun k => if k = i then fun _ => (0, 0) else s.ao k
        ai := fun k => if k = i then fun _ => (0, 0) else s.ai k }
    else s
  | .initAo i j t o => if i < s.count then { s with ao := fun k l => if k = i ∧ l = j then (t, o) else s.ao k l } else s
  | .initAi i j t o => if i < s.count then { s with ai := fun k l => if k = i ∧ l = j then (t, o) else s.ai k l } else s
  | .bind .. => s

/-- What a script says. -/
def said (h : List Call) : Said := h.foldl Said.next {}

/-- The node cannot be used: it has no type, or it is reached by a network and has no address. -/
def Args.Useless (a : Args) : Prop := a.type = -1 ∨ (100 ≤ a.type ∧ (a.ip = none ∨ a.ip = some []))

/-- The arguments fit: texts with their ends into 16 and 20 bytes, no negative numbers, and a name for a node that is reported as
useless. -/
def Args.Fit (a : Args) : Prop :=
  (∀ t, a.ip = some t → t.length + 1 ≤ 16) ∧ (∀ t, a.name = some t → t.length + 1 ≤ 20) ∧
  0 ≤ a.doCnt ∧ 0 ≤ a.diCnt ∧ 0 ≤ a.aoCnt ∧ 0 ≤ a.aiCnt ∧ (a.Useless → a.name ≠ none)

/-- A call that is in order after what was said. -/
def Good (s : Said) : Call → Prop
  | .init n => 0 ≤ n
  | .add i a => i < s.count → a.Fit
  | .initAo i _ _ _ | .initAi i _ _ _ => i < s.count → s.node i ≠ none
  | .bind .. => True

/-- A script whose calls are all in order. -/
def AllGood (h : List Call) : Prop := ∀ p c q, h = p ++ c :: q → Good (said p) c

/-- A node is as it was said: `i` is its number. -/
structure AsSaid (s : Said) (i : Nat) (a : Args) (n : Node) : Prop where
  type : n.type = a.type
  number : n.number = a.number
  ip : n.ip = a.ip.getD []
  name : n.name = a.name.getD []
  active : n.active = false ↔ a.Useless
  doCnt : (n.doCnt : Int) = a.doCnt
  diCnt : (n.diCnt : Int) = a.diCnt
  aoCnt : (n.ao.length : Int) = a.aoCnt
  aiCnt : (n.ai.length : Int) = a.aiCnt
  ao : ∀ j < n.ao.length, n.ao[j]? = some (s.ao i j)
  ai : ∀ j < n.ai.length, n.ai[j]? = some (s.ai i j)

/-- The number of channels of a kind that a node has according to the project; analog channels can be anywhere in an array of fixed
size. -/
def Args.room (a : Args) : Kind → Int
  | .di => a.diCnt
  | .dout => a.doCnt
  | .ai | .ao => 2016

/-- A call does not touch the node `i` as a whole nor the channel `c`. -/
def Call.Leaves (i c : Nat) : Call → Prop
  | .init _ => False
  | .add k _ => k ≠ i
  | .initAo .. | .initAi .. => True
  | .bind d _ _ _ => d ≠ c

end Ptusa.IoConf
