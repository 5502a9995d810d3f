import Verif.VirtValve.Model

/-!
# A virtual valve, as it should be

A number (0 closed, 1 open, 2 and 3 seats), whether it is in manual mode, whether the program has opened it, and when the program
asked to close it.
-/
namespace Ptusa.VirtValve
open Ptusa.ValveOff (Tm)

/-- A valve on its own. -/
structure Vv where
  number : Int := 0
  manual : Bool := false
  auto : Bool := false
  request : Option Tm := none
  deriving DecidableEq

/-- What happens to valve `i`. -/
def Vv.next (i : Nat) (v : Vv) : Act → Vv
  | .on j _ => if j = i then { v with auto := true, request := none, number := if v.manual then v.number else 1 } else v
  | .off j t =>
    if j = i then
      if v.auto ∧ v.number ≠ 2 ∧ v.number ≠ 3 then
        match v.request with
        | none => { v with request := some t }
        | some _ => v
      else if v.manual then v else { v with number := 0 }
    else v
  | .instantOff j _ => if j = i ∧ v.manual = false then { v with number := 0 } else v
  | .set j _ n => if j = i ∧ v.manual = false then { v with number := n } else v
  | .oper j _ n => if j = i then { v with number := n } else v
  | .manual j m => if j = i then { v with manual := m } else v
  | .fb _ _ _ => v
  | .evaluate t delay _ =>
    match v.request with
    | some t0 =>
      if ValveOff.elapsed t t0 > delay.toNat then
        { v with request := none, auto := false, number := if v.manual then v.number else 0 }
      else v
    | none => v

/-- A history. -/
def Vv.after (i : Nat) (h : List Act) : Vv := h.foldl (Vv.next i) {}

/-- The state shown of a number with modules: 20 is added in manual mode; unknown numbers are 100. -/
def label (manual : Bool) (n : Int) : Int :=
  if 0 ≤ n ∧ n ≤ 3 then (if manual then 20 + n else n) else if n = 5 then 5 else 100

/-- The feedback `opened` (`w`) or `closed` of valve `i` that was set by name last; false at the start. -/
def fbOf (i : Nat) (w : Bool) (h : List Act) : Bool :=
  h.foldl (fun x a => match a with
    | .fb j w' v => if j = i ∧ w' = w then v else x
    | _ => x) false

end Ptusa.VirtValve
