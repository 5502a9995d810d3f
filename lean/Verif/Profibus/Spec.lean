import Verif.Profibus.Model

/-!
# What a master and the program should see
-/
namespace Ptusa.Profibus

/-- The library gave bytes in this cycle: all its functions up to `ReadBytes` succeeded. -/
def Lib.Gave (l : Lib) : Prop := l.ok .watchdog = true ∧ l.ok .readStart = true ∧ l.ok .readBytes = true

instance (l : Lib) : Decidable l.Gave := inferInstanceAs (Decidable (_ ∧ _ ∧ _))

/-- The event brings bytes of the master. -/
def Ev.gave : Ev → Bool
  | .cycle l => decide l.Gave
  | _ => false

/-- The bytes the master sent last, as far as they have reached the controller; zeros at first. -/
def received : List Ev → Nat → Byte
  | [], _ => 0
  | .cycle l :: h, i => if h.any Ev.gave then received h i
      else if l.Gave then l.data i else 0
  | _ :: h, i => received h i

/-- Bit `k` of byte `b` as the program has set it last: by `set_bool` there, or by `set_int` at this byte (upper half of the
word) or at the byte before it (lower half). -/
def wanted (b k : Nat) (old : Bool) : List Ev → Bool
  | [] => old
  | .setBool o i v :: h => wanted b k (if o = b ∧ i = k then v else old) h
  | .setInt o v :: h => wanted b k
      (if o < 242 ∧ o = b then v.getLsbD (k + 8) else if o < 242 ∧ o + 1 = b then v.getLsbD k else old) h
  | .cycle _ :: h => wanted b k old h

/-- The word, in the order of PROFIBUS: the upper byte first. -/
def word (f : Nat → Byte) (i : Nat) : Nat := (f i).toNat * 256 + (f (i + 1)).toNat

/-- The double word. -/
def dword (f : Nat → Byte) (i : Nat) : Nat := word f i * 65536 + word f (i + 2)

/-- The places named in the events are not negative. -/
def Ev.Legal : Ev → Prop
  | .setInt o _ => 0 ≤ o
  | .setBool o i _ => 0 ≤ o ∧ 0 ≤ i
  | .cycle _ => True

end Ptusa.Profibus
