import Verif.LineDev.Model

/-!
# The plan of a washing line
-/
namespace Ptusa.LineDev
open SaveDev

/-- The letters of a device and its place in the line, in the old and in the new form (0: there is none). -/
def place : Own → String × Nat × Nat
  | .V k => ("V", k, k)
  | .NP => ("M", 3, 1)
  | .LL => ("LS", 3, 3)
  | .LM => ("LS", 2, 2)
  | .LH => ("LS", 1, 1)
  | .TP => ("TE", 1, 1)
  | .TR => ("TE", 2, 2)
  | .cnt => ("FQT", 1, 1)
  | .Q => ("QT", 1, 1)
  | .FL => ("FS", 1, 1)
  | .ao => ("VC", 14, 14)
  | .pressure => ("PT", 0, 1)

/-- Its name: in the old form the number of the line comes again before the place, as hundreds. -/
def planned (old : Bool) (n : Nat) (r : Own) : Txt :=
  "LINE".toList ++ natText n ++ (place r).1.toList ++ natText (if old then 100 * n + (place r).2.1 else (place r).2.2)

/-- The station uses the old form for a line: its first and its twelfth valve are named so. -/
def OldForm (find : Find) (n : Nat) : Prop :=
  find (planned true n (.V 0)) ≠ none ∧ find (planned true n (.V 11)) ≠ none

/-- The sensors of the station: water, then alkali, then acid, the upper one before the lower one; then three temperatures. -/
def sensors : List (Tank × String) :=
  [(.LWH, "LS8"), (.LWL, "LS9"), (.LSH, "LS4"), (.LSL, "LS5"), (.LKH, "LS6"), (.LKL, "LS7"), (.LTS, "LT1"), (.LTK, "LT2"), (.LTW, "LT3")]

/-- No two names are of one device. -/
def Distinct (find : Find) : Prop := ∀ a b d, find a = some d → find b = some d → a = b

end Ptusa.LineDev
