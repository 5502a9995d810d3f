import Verif.CipDose.Model

/-!
# What is expected of the preparation of a solution
-/
namespace Ptusa.CipDose

/-- How long the dosing pump has run from `t0`, when the line was in state `l`, to `t`, milliseconds. -/
def ran (p : Par) (l : Line) (t0 : Nat) : List (Nat × Ev) → Nat → Nat
  | [], t => if l.pump then t - t0 else 0
  | e :: h, t => (if l.pump then e.1 - t0 else 0) +
    match l.event p e.1 e.2 with
    | some l' => ran p l' e.1 h t
    | none => 0

/-- The times of the events do not decrease. -/
def Ordered (t0 : Nat) : List (Nat × Ev) → Nat → Prop
  | [], t => t0 ≤ t
  | e :: h, t => t0 ≤ e.1 ∧ Ordered e.1 h t

/-- The events of one step: cycles, stops and resumes. -/
def Ev.within : Ev → Prop
  | .next _ => False
  | _ => True

/-- Cycles only. -/
def Ev.plain : Ev → Prop
  | .cycle _ _ _ => True
  | _ => False

/-- The parameters make sense. -/
structure Par.Ok (p : Par) : Prop where
  pd : 0 < p.pd
  kk : 0 < p.kk
  ro : 0 < p.ro
  vt : 0 < p.vt
  czad : 0 < p.czad ∧ p.czad < 100

/-- The concentration of a tank with `vt` litres of `conc` per cent after `v` litres of concentrate, per cent of one. The concentrate counts
as mass of the pure medium. -/
def after (p : Par) (conc v : Rat) : Rat :=
  (conc / 100 * p.vt + v * (p.kk / 100) * p.ro) / (p.vt + v * (p.kk / 100) * p.ro)

/-- What the warnings should depend on: the volume of the last dosing and whether there is something to report. -/
structure Mem where
  prev : Option Rat := none
  pend : Bool := false

/-- A dosing of `v` litres begins: something is to be reported when it is, by a tenth, that of the last one. -/
def Mem.dose (m : Mem) (v : Rat) : Mem :=
  { prev := some v, pend := match m.prev with | none => false | some u => decide (u - v < u / 10 ∧ v - u < u / 10) }

/-- The memory after an event. -/
def Mem.event (p : Par) (m : Mem) (l : Line) (t : Nat) : Ev → Mem
  | .next .add => m.dose (volume p l.conc)
  | .cycle c q f => if l.on ∧ (l.cycle p t c q f).2 = .noMedium then { m with pend := false } else m
  | _ => m

/-- The memory after events. -/
def Mem.run (p : Par) (m : Mem) (l : Line) : List (Nat × Ev) → Mem
  | [] => m
  | e :: h => match l.event p e.1 e.2 with
    | some l' => Mem.run p (m.event p l e.1 e.2) l' h
    | none => m

/-- No dosing begins while something is still to be reported. -/
def Reported (p : Par) (m : Mem) (l : Line) : List (Nat × Ev) → Prop
  | [] => True
  | e :: h => (e.2 = .next .add → m.pend = false) ∧
    match l.event p e.1 e.2 with
    | some l' => Reported p (m.event p l e.1 e.2) l' h
    | none => True

instance Reported.dec (p : Par) (m : Mem) (l : Line) : (h : List (Nat × Ev)) → Decidable (Reported p m l h)
  | [] => isTrue trivial
  | e :: h => by
    unfold Reported
    cases l.event p e.1 e.2 with
    | none => infer_instance
    | some l' =>
      have := Reported.dec p (m.event p l e.1 e.2) l' h
      infer_instance

/-- The counter does not move back; every value is weighted by the litres since the last one. -/
def weighted (q0 : Nat) : List (Rat × Nat) → Rat
  | [] => 0
  | e :: h => e.1 * ((e.2 - q0 : Nat) : Rat) + weighted (max q0 e.2) h

/-- The highest reading of the counter. -/
def highest (q0 : Nat) (h : List (Rat × Nat)) : Nat := h.foldl (fun q e => max q e.2) q0

end Ptusa.CipDose
