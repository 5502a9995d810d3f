import Verif.TextFile.Model

/-! # The lines of a file -/
namespace Ptusa.TextFile.Spec

/-- A line: not empty, with a line feed at its end at most; all but the last line of a file have one. -/
def Full (l : List Byte) : Prop := ∃ a, l = a ++ [10] ∧ 10 ∉ a

/-- The lines of a file. -/
def Lines (data : List Byte) : List (List Byte) → Prop
  | [] => data = []
  | [l] => data = l ∧ (Full l ∨ (l ≠ [] ∧ 10 ∉ l))
  | l :: m :: ls => ∃ rest, data = l ++ rest ∧ Full l ∧ Lines rest (m :: ls)

/-- Text without zeros, and lines that fit. -/
def Fits (l : List Byte) : Prop := l.length < 200 ∧ 0 ∉ l

/-- What the calls should return: a reader that goes through the lines, and sees the next one with `peek`. -/
def expect : List (List Byte) → List Call → List (List Byte)
  | _, [] => []
  | ls, .peek :: cs => ls.headD [] :: expect ls cs
  | ls, .get :: cs => ls.headD [] :: expect ls.tail cs

end Ptusa.TextFile.Spec
