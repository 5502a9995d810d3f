import Verif.SaveDev.Model

/-!
# The devices of a washing line

Model of the beginning of `cipline_tech_object::initline` (PAC/common/cip_tech_def.cpp 807-992): which devices a line gets.

A device is found by its name (see `Registry`); `none` is the stub that is given for a name that is not there.  Names are put together by `sprintf` in arrays of
20 bytes (lines 810-811): a longer name is the outcome `none`.  Numbers of lines are small enough that `number * 100 + 13` does not overflow.  Left out: the
regulators (see `CipPid`), the states set in an emulator, the log.
-/
namespace Ptusa.LineDev
open SaveDev

/-- What a line has for itself. -/
inductive Own where
  | V (k : Fin 14) | NP | LL | LM | LH | TP | TR | cnt | Q | FL | ao | pressure
  deriving DecidableEq, Repr

/-- What the lines have in common: the tanks. -/
inductive Tank where
  | LWH | LWL | LSH | LSL | LKH | LKL | LTS | LTK | LTW
  deriving DecidableEq, Repr

/-- The devices of the project by their names. -/
abbrev Find := Txt → Option Nat

/-- `"LINE%d…%d"` -/
def dev (n : Nat) (letters : String) (k : Nat) : Txt := "LINE".toList ++ natText n ++ letters.toList ++ natText k

/-- The names in the old form (lines 821-886); there is no sensor of pressure. -/
def oldName (n : Nat) : Own → Option Txt
  | .V k => some (dev n "V" (n * 100 + k))
  | .NP => some (dev n "M" (n * 100 + 3))
  | .LL => some (dev n "LS" (n * 100 + 3))
  | .LM => some (dev n "LS" (n * 100 + 2))
  | .LH => some (dev n "LS" (n * 100 + 1))
  | .TP => some (dev n "TE" (n * 100 + 1))
  | .TR => some (dev n "TE" (n * 100 + 2))
  | .cnt => some (dev n "FQT" (n * 100 + 1))
  | .Q => some (dev n "QT" (n * 100 + 1))
  | .FL => some (dev n "FS" (n * 100 + 1))
  | .ao => some (dev n "VC" (n * 100 + 14))
  | .pressure => none

/-- The names in the new form (lines 890-985). -/
def newName (n : Nat) : Own → Option Txt
  | .V k => some (dev n "V" k)
  | .NP => some (dev n "M" 1)
  | .LL => some (dev n "LS" 3)
  | .LM => some (dev n "LS" 2)
  | .LH => some (dev n "LS" 1)
  | .TP => some (dev n "TE" 1)
  | .TR => some (dev n "TE" 2)
  | .cnt => some (dev n "FQT" 1)
  | .Q => some (dev n "QT" 1)
  | .FL => some (dev n "FS" 1)
  | .ao => some (dev n "VC" 14)
  | .pressure => some (dev n "PT" 1)

/-- The names of the common sensors (lines 860-871, 956-967; manager.cpp 44-50). -/
def tankName : Tank → Txt
  | .LWH => "LS8".toList
  | .LWL => "LS9".toList
  | .LSH => "LS4".toList
  | .LSL => "LS5".toList
  | .LKH => "LS6".toList
  | .LKL => "LS7".toList
  | .LTS => "LT1".toList
  | .LTK => "LT2".toList
  | .LTW => "LT3".toList

/-- A line. -/
structure Line where
  own : Own → Option Nat
  tank : Tank → Option Nat
  NS : Option Nat
  NK : Option Nat

/-- A common pump: in the new form a valve if there is no motor (lines 924-949). -/
def pump (find : Find) (old : Bool) (motor valve : Txt) : Option Nat :=
  if old then find motor
  else if find motor = none then find valve else find motor

def owns : List Own :=
  (List.finRange 14).map .V ++ [.NP, .LL, .LM, .LH, .TP, .TR, .cnt, .Q, .FL, .ao, .pressure]

/-- `sprintf` into an array of 20 bytes. -/
def fits (t : Txt) : Bool := t.length < 20

/-- The search for all devices, in one of the two forms (lines 820-987). -/
def search (find : Find) (n : Nat) (old : Bool) : Option Line :=
  let name := if old then oldName n else newName n
  if owns.all (fun r => (name r).all fits) then
    some { own := fun r => (name r).bind find, tank := fun t => find (tankName t),
           NS := pump find old "M1".toList "V101".toList, NK := pump find old "M2".toList "V102".toList }
  else none

/-- `initline`: the form is the old one if two of its valves are there (lines 812-820). -/
def initline (find : Find) (n : Nat) : Option Line :=
  let a := dev n "V" (n * 100)
  let b := dev n "V" (n * 100 + 11)
  if fits a && fits b then search find n ((find a).isSome && (find b).isSome)
  else none

end Ptusa.LineDev
