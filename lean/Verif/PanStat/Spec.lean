import Verif.PanStat.Model
import Verif.Panel.Spec

/-!
# What the panel is to the parameters of the station
-/
namespace Ptusa.PanStat
open Tcp (Byte Buf zeros)
open Modbus (head writeMsg)
open Panel (regBytes)

/-- What a panel does: floats from parameter `a` on, a coil, reading of registers and coils. -/
inductive Ev where
  | floats (a : Nat) (vs : List (BitVec 32))
  | coil (c : Nat) (on : Bool)
  | read (a n : Nat)
  | readCoils (c n : Nat)
  deriving DecidableEq, Repr

/-- The message: parameter `a` has the registers `2 * a` and `2 * a + 1`, and the coil `a`. -/
def Ev.msg : Ev → Buf
  | .floats a vs => zeros (writeMsg 101 (BitVec.ofNat 16 (2 * a)) (BitVec.ofNat 16 (2 * vs.length)) (vs.flatMap regBytes))
  | .coil c on => zeros (head 101 5 (BitVec.ofNat 16 c) (if on then 0xFF00 else 0))
  | .read a n => zeros (head 101 3 (BitVec.ofNat 16 (2 * a)) (BitVec.ofNat 16 (2 * n)))
  | .readCoils c n => zeros (head 101 1 (BitVec.ofNat 16 c) (BitVec.ofNat 16 n))

/-- The numbers fit into the message. -/
def Ev.Fits : Ev → Prop
  | .floats a vs => 2 * a < 65536 ∧ 2 * vs.length < 65536
  | .coil c _ => c < 65536
  | .read a n => 2 * a < 65536 ∧ 2 * n < 65536
  | .readCoils c n => c < 65536 ∧ n < 65536

/-- What a message says of parameter `i`. -/
def Ev.gives (i : Nat) : Ev → Option (BitVec 32)
  | .floats a vs => if a ≤ i then vs[i - a]? else none
  | .coil c on => if c = i then some (if on then 0x3F800000 else 0) else none
  | .read .. => none
  | .readCoils .. => none

/-- The last value given to parameter `i`. -/
def given (i : Nat) (h : List Ev) : Option (BitVec 32) := h.reverse.findSome? (Ev.gives i)

end Ptusa.PanStat
