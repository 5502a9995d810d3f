import Verif.ValveMore.Model

/-!
# What these valves should do
-/
namespace Ptusa.ValveMore
open Valve (Tm)

/-- What a command to set the state `n` tells a valve that was told `s`: 0 close, 1 open, 2 and 3 lift a seat (or open the
small valve).  Classes without seats ignore them or close or open instead. -/
def target (k : Kind) (s n : Int) : Int :=
  match k with
  | .flush => if n = 0 ∨ n = 2 then 0 else if n = 3 then 3 else 1
  | .termMix | .as => if n = 0 then 0 else if n = 2 then 2 else if n = 3 then 3 else 1
  | .asDi2 => if n = 2 ∨ n = 3 then s else if n = 0 then 0 else 1
  | _ => if n = 0 then 0 else 1

/-- What the valve is told after an event. -/
def tells (k : Kind) (s : Int) : Ev → Int
  | .on _ => 1
  | .off _ => 0
  | .set _ n => target k s n
  | _ => s

/-- The inputs agree with what the valve was told; while a seat is lifted they are not looked at. -/
def agrees (k : Kind) (s : Int) (x y : Bool) : Bool :=
  match k with
  | .termOn => x == decide (s = 1)
  | .termOff => x == decide (s = 0)
  | _ => if s = 1 then x && !y else if s = 0 then !x && y else true

/-- The classes that also count from the last look at which the inputs agreed. -/
def Kind.looks : Kind → Bool
  | .termOn | .termOff | .termDi2 | .termMix | .asDi2 => true
  | _ => false

/-- What one has to remember of a history: what the valve was told, its inputs, and since when. -/
structure Mem where
  told : Int := 0
  x : Bool := false
  y : Bool := false
  since : Tm
  deriving DecidableEq

/-- When an event restarts the time. -/
def Ev.time : Ev → Option Tm
  | .on t | .off t | .set t _ | .ask t _ _ => some t
  | .inputs _ _ => none

/-- Memory of a history: the time counts from the last command that told something else, and for some classes from the
last look at which the inputs agreed, if the feedback is used and the terminal is connected. -/
def Mem.next (k : Kind) (pFb : Fl) (m : Mem) (e : Ev) : Mem :=
  match e with
  | .inputs x y => { m with x := x, y := y }
  | .ask t _ link =>
    if k.looks ∧ (m.told = 0 ∨ m.told = 1) ∧ agrees k m.told m.x m.y ∧ pFb.eq (.num 0) = false ∧ (k.term → link = 0) then
      { m with since := t }
    else m
  | .on t | .off t | .set t _ => if tells k m.told e = m.told then m else { m with told := tells k m.told e, since := t }

/-- Memory of a whole history. -/
def mem (k : Kind) (pFb : Fl) (t0 : Tm) (es : List Ev) : Mem := es.foldl (Mem.next k pFb) { since := t0 }

/-- The clock does not run backwards. -/
def Clock (t0 : Tm) (es : List Ev) (t1 : Tm) : Prop :=
  ((t0 :: es.filterMap Ev.time) ++ [t1]).Pairwise (· ≤ ·)

/-- No command to lift a seat. -/
def NoSeat (es : List Ev) : Prop := ∀ t n, Ev.set t n ∈ es → n ≠ 2 ∧ n ≠ 3

/-- The numbers under which a state is shown (`off`: the feedback is not used, `m`: the valve is operated by hand): good,
still moving, or an error; without feedback only one. -/
def codes (off m : Bool) (s : Int) : List Int :=
  match off, m with
  | true, true => [if s = 0 then 30 else if s = 1 then 31 else if s = 2 then 22 else 23]
  | true, false => [if s = 0 then 10 else if s = 1 then 11 else if s = 2 then 32 else 33]
  | false, true => if s = 0 then [20, 43, -13] else if s = 1 then [21, 42, -12] else if s = 2 then [22] else [23]
  | false, false => if s = 0 then [0, 41, -3] else if s = 1 then [1, 40, -2] else if s = 2 then [2] else [3]

end Ptusa.ValveMore
