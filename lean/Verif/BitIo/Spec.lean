import Verif.BitIo.Model

/-!
# What commands to valves that share bytes should do
-/
namespace Ptusa.BitIo

/-- The bit of an output. -/
def bit (m : Mem) (a : Addr) : Bool := ((m a.img)[(a.id - 1) / 8]?.getD 0).getLsbD ((a.id - 1) % 8)

/-- The last command given to valve `i`. -/
def last (i : Nat) (l : List (Nat × Cmd)) : Option Cmd := ((l.filter fun p => p.1 == i).getLast?).map Prod.snd

/-- The number of the state a command leads to. -/
def Cmd.state : Cmd → Int
  | .off => 0
  | .on => 1
  | .upper => 2
  | .lower => 3

/-- Every output belongs to one valve, once. -/
def Wired (cfg : Nat → List Addr) : Prop :=
  ∀ (i j p q : Nat) (a : Addr), (cfg i)[p]? = some a → (cfg j)[q]? = some a → i = j ∧ p = q

end Ptusa.BitIo
