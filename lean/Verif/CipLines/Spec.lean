import Verif.CipLines.Model

/-! # What the list of the washing lines is for -/
namespace Ptusa.CipLines.Spec

open CipLines

/-- The lines of a station are numbered 1, 2, … without gaps and each is set up once; there are at most ten. -/
def Numbered (ls : List (Nat × Int)) : Prop :=
  ls.length ≤ 10 ∧ (ls.map Prod.snd).Perm ((List.range ls.length).map (fun k : Nat => (k : Int) + 1))

end Ptusa.CipLines.Spec
