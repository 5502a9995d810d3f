import Verif.PanText.Model
import Verif.Text.Spec

/-!
# What the panel is to find
-/
namespace Ptusa.PanText
open Tcp (Byte Buf)
open Text (cp utf8 Plain)

/-- The text `u` in memory has the characters `l`: letters, ASCII and the number sign, less than `room`. -/
def Written (room : Nat) (u : List Byte) (l : List Byte) : Prop :=
  u = l.flatMap (fun b => utf8 (cp b)) ∧ (∀ b ∈ l, Plain b) ∧ l.length < room

/-- The first register of each text of a line, with the registers up to the next one. -/
def texts (l : Line) : List (Nat × Nat × List Byte) :=
  [(0, 20, l.car 0), (20, 20, l.car 1), (40, 20, l.car 2), (60, 32, l.car 3), (200, 24, l.acid), (224, 24, l.wash), (248, 31, l.prog)]

/-- All texts of a line are such. -/
def Proper (l : Line) : Prop := ∀ x ∈ texts l, ∃ c, Written x.2.1 x.2.2 c

/-- The register `i` of an answer. -/
def register (b : Buf) (i : Nat) : Nat := (b (3 + 2 * i)).toNat * 256 + (b (4 + 2 * i)).toNat

end Ptusa.PanText
